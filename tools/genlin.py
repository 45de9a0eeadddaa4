#!/usr/bin/env python3
"""Writes Verif/Lib/FnsLin.lean: every generated text function is `Lin` (it uses its continuation once,
at the end).  The order of the functions is that of the generated files."""
import re, glob, sys
root = sys.argv[1] if len(sys.argv) > 1 else '/verif/lean'
defs = []
for i in range(15):
    src = open(f'{root}/Verif/Model/Fns{i}.lean').read()
    for m in re.finditer(r'^def (\S+) ?(.*?): Gen Unit := *(.*?)(?=^/--|^def |^end|\Z)', src, re.S | re.M):
        defs.append((m.group(1), m.group(2), m.group(3)))
names = {d[0] for d in defs}
roots = set(re.findall(r'=> (ConvertFix\.\w+)', open(f'{root}/Verif/Model/Dispatch.lean').read()))
roots |= {'ConvertFix.PostFixRomanOutput', 'ConvertFix.ShiftDiacritics', 'PostProcess.default',
          'ConvertFix.FixRomanOutput', 'ConvertFix.VedicSvarsIndicLatin'}
body = {d[0]: d for d in defs}
def callees(n):
    return [w for w in dict.fromkeys(re.findall(r'[A-Za-z_][\w.]*', body[n][2])) if w in names and w != n]
use, todo = set(), list(roots)
while todo:
    n = todo.pop()
    if n in use: continue
    use.add(n); todo += callees(n)
out = ['import Verif.Lib.Linear', 'import Verif.Model.Dispatch', '', '/-!', '# The text functions of the output and input fixes are linear', '', 'Generated by tools/genlin.py.', '-/', '', 'namespace Verif', '', 'set_option maxHeartbeats 4000000', '']
for n, binders, b in defs:
    if n not in use: continue
    bs = re.findall(r'\((\w+) : ([^):=]*[^):= ])[^)]*\)', binders)
    args = ' '.join(x for x, _ in bs)
    sig = ' '.join(f'({x} : {t})' for x, t in bs)
    ln = 'lin_' + n.replace('.', '_')
    cs = callees(n)
    app = f'({n} {args})' if args else n
    out.append(f'theorem {ln} {sig + " " if sig else ""}: Lin {app} := by')
    out.append(f'  unfold {n}')
    if cs:
        out.append('  lin')
        out.append('  all_goals with_reducible first ' + ' '.join(f'| apply lin_{c.replace(".", "_")}' for c in cs))
    else:
        out.append('  lin')
    out.append('')
fixes = sorted(n for n in roots if 'Fix' in n)
out += ['theorem fixIndicFns_lin : ∀ p ∈ fixIndicFns, ∀ b, Lin (p.2 b) := by',
        '  unfold fixIndicFns',
        '  repeat (refine List.forall_mem_cons.2 ⟨fun b => ?_, ?_⟩; · dsimp only; with_reducible first ' +
        ' '.join(f'| apply lin_{c.replace(".", "_")}' for c in fixes) + ')',
        '  exact fun p hp => nomatch hp', '']
out.append('end Verif')
open(f'{root}/Verif/Lib/FnsLin.lean', 'w').write('\n'.join(out) + '\n')

# the option functions
disp = open(f'{root}/Verif/Model/Dispatch.lean').read()
tables = {k: re.search(r'^def %s .*?\n(.*?)\]\n' % k, disp, re.S | re.M).group(1) for k in ('preFns', 'postFns')}
opt, todo = set(), [n for t in tables.values() for n in re.findall(r'\), ([A-Z]\w*\.\w+)', t)]
missing = sorted(n for n in todo if n not in names)
todo = [n for n in todo if n in names]
while todo:
    n = todo.pop()
    if n in opt: continue
    opt.add(n); todo += callees(n)
PARTS = 4
mine = [d for d in defs if d[0] in opt and d[0] not in use]
def head(imports, title):
    return [f'import {i}' for i in imports] + ['', '/-!', f'# {title}', '', 'Generated by tools/genlin.py.', '-/', '',
            'namespace Verif', '', 'set_option maxHeartbeats 4000000', 'set_option maxRecDepth 10000', '']
def lemma(n, binders):
    bs = re.findall(r'\((\w+) : ([^):=]*[^):= ])[^)]*\)', binders)
    args = ' '.join(x for x, _ in bs)
    sig = ' '.join(f'({x} : {t})' for x, t in bs)
    cs = callees(n)
    app = f'({n} {args})' if args else n
    r = [f'theorem lin_{n.replace(".", "_")} {sig + " " if sig else ""}: Lin {app} := by', f'  unfold {n}', '  lin']
    if cs:
        r.append('  all_goals with_reducible first ' + ' '.join(f'| apply lin_{c.replace(".", "_")}' for c in cs))
    return r + ['']
out = head(['Verif.Lib.FnsLin'], 'The option functions are linear')
out += ['theorem lin_PreProcess_retainLatin (reverse : Bool) : Lin (PreProcess.retainLatin reverse) := by',
        '  unfold PreProcess.retainLatin', '  lin', '']
for n, binders, b in mine: out += lemma(n, binders)
for k, t in tables.items():
    out += [f'theorem {k}_lin : ∀ p ∈ {k}, Lin p.2 := by', f'  unfold {k}']
    for line in t.strip().split('\n'):
        m = re.search(r'\), ([A-Z]\w*\.\w+)', line)
        pr = f'lin_{m.group(1).replace(".", "_")}' if m else 'Lin.fail _'
        out.append(f'  refine List.forall_mem_cons.2 ⟨by dsimp only; apply {pr}, ?_⟩')
    out += ['  exact fun p hp => nomatch hp', '']
out.append('end Verif')
open(f'{root}/Verif/Lib/OptLin.lean', 'w').write('\n'.join(out) + '\n')
print(len(use), len(defs), len(mine), missing)
