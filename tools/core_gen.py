#!/usr/bin/env python3
"""Write Verif/Spec/CoreTable.lean and the checks from the output of core_search.txt."""
import os
here = os.path.join(os.path.dirname(os.path.abspath(__file__)), '..', 'lean', 'Verif')
names = open('/tmp/x/core_chk.txt').read().split()
body = open('/tmp/x/core_out.txt').read()
t = '''import Verif.Spec.Core

/-!
# Core letters and forbidden sequences

Found by a search (`tools/core_search.txt`), checked by the kernel in `Verif.Lib.Checks.Core*`.
-/

namespace Verif

''' + body
t += 'def coreTable : List CoreEntry := [\n  ' + ', '.join('core' + n for n in names) + ']\n\nend Verif\n'
import textwrap
t = t.replace('def coreTable : List CoreEntry := [\n  ' + ', '.join('core' + n for n in names) + ']',
  'def coreTable : List CoreEntry := [\n' + '\n'.join(textwrap.wrap(', '.join('core' + n for n in names), 100, initial_indent='  ', subsequent_indent='  ')) + ']')
open(os.path.join(here, 'Spec', 'CoreTable.lean'), 'w').write(t)
k = 7
chunks = [names[i:i + k] for i in range(0, len(names), k)]
for i, c in enumerate(chunks):
    with open(os.path.join(here, 'Lib', 'Checks', 'Core%02d.lean' % i), 'w') as f:
        f.write('import Verif.Lib.Letterwise\nimport Verif.Spec.CoreTable\n\nnamespace Verif\n\n')
        for n in c:
            f.write('theorem coreOk_%s : coreOk core%s = true := by decide +kernel\n' % (n, n))
        f.write('\nend Verif\n')
with open(os.path.join(here, 'Lib', 'CoreChecks.lean'), 'w') as f:
    for i in range(len(chunks)):
        f.write('import Verif.Lib.Checks.Core%02d\n' % i)
    f.write('\n/-!\n# All core checks\n-/\n\nnamespace Verif\n\n')
    f.write('theorem coreOk_all : ∀ e ∈ coreTable, coreOk e = true := by\n  unfold coreTable\n')
    for n in names:
        f.write('  refine List.forall_mem_cons.2 ⟨coreOk_%s, ?_⟩\n' % n)
    f.write('  exact List.forall_mem_nil _\n\nend Verif\n')
