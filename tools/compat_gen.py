"""Write the table of pairs of scripts that are not compatible.

Usage: python3 compat_gen.py   (reads the pairs from the list below, the scripts from CoreTable.lean)
"""
import re, os
ROOT = os.path.join(os.path.dirname(os.path.abspath(__file__)), '..', 'lean', 'Verif')
PAIRS = """Brahmi<-TamilBrahmi, TaiTham<-ThamLoC, BatakManda<-BatakKaro, BatakToba<-BatakKaro, BatakSima<-BatakKaro, BatakPakpak<-BatakKaro, BatakKaro<-BatakManda, BatakKaro<-BatakToba, BatakKaro<-BatakSima, BatakKaro<-BatakPakpak, Tibetan<-TibetanLoC, Khmer<-KhmerLoC, TamilGrantha<-BengaliRaBa, TamilBrahmi<-Brahmi, Assamese<-BengaliRaBa, Bengali<-BengaliRaBa, GranthaGrantamil<-BengaliRaBa, Shan<-TaiLaing, Shan<-KhamtiShan, Shan<-ShanLoC, TaiLaing<-Shan, TaiLaing<-KhamtiShan, TaiLaing<-ShanLoC, KhamtiShan<-Shan, KhamtiShan<-TaiLaing, KhamtiShan<-ShanLoC, KhuenTham<-ThamLoC, LueTham<-ThamLoC, LaoTham<-ThamLoC, BengaliRaBa<-TamilGrantha, BengaliRaBa<-Assamese, BengaliRaBa<-Bengali, BengaliRaBa<-GranthaGrantamil, ShanLoC<-TaiLaing, ShanLoC<-KhamtiShan, KhmerLoC<-Khmer, ThamLoC<-TaiTham, ThamLoC<-KhuenTham, ThamLoC<-LueTham, ThamLoC<-LaoTham, TibetanLoC<-Tibetan"""
exc = {}
for p in PAIRS.split(', '):
    s, t = p.split('<-')
    exc.setdefault(s, []).append(t)
tab = open(os.path.join(ROOT, 'Spec', 'CoreTable.lean')).read()
body = tab[tab.index('def coreTable'):]
names = re.findall(r'\bcore([A-Z]\w*)', body[body.index(':='):])
names = [n for n in names if n != 'Table']
lst = lambda l: 'us![' + ', '.join('"%s"' % x for x in l) + ']'
spec = '''import Verif.Spec.CoreTable

/-!
# Specification: pairs of scripts that use a character for different letters

Generated by tools/compat_gen.py.
-/

namespace Verif

/-- For a source script, the target scripts that use one of its characters for another letter. -/
def clashing : List (PyStr × List PyStr) := [
%s]

/-- The scripts give a shared character the same value. -/
def Agree (S T : PyStr) : Prop := ∀ l, (S, l) ∈ clashing → T ∉ l

end Verif
''' % ',\n'.join('  (u! "%s", %s)' % (s, lst(exc[s])) for s in names if s in exc)
open(os.path.join(ROOT, 'Spec', 'Clash.lean'), 'w').write(spec)
