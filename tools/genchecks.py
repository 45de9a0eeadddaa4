#!/usr/bin/env python3
"""Writes Verif/Lib/Checks/{Src,Tgt}<i>.lean and Verif/Lib/PlainAll.lean: the per-script checks, in
chunks that build in parallel.  Input: two lines of comma separated script names (plain sources and
plain targets); that the lists are complete is proved in PlainAll.lean."""
import sys, os, glob
root = '/verif/lean/Verif/Lib'
src, tgt = [l.strip().split(',') for l in open(sys.argv[1]) if l.strip()]
for f in glob.glob(root + '/Checks/Src*.lean') + glob.glob(root + '/Checks/Tgt*.lean'): os.remove(f)
def chunks(l, n):
    return [l[i::n] for i in range(n)]
mods, names = [], {}
for kind, l, n, chk, what in [('Src', src, 8, 'srcEvery', 'source'), ('Tgt', tgt, 14, 'tgtEvery', 'target')]:
    for i, c in enumerate(chunks(l, n)):
        body = f'''import Verif.Lib.PlainChecks

/-! Per-script checks, {what} scripts, part {i}.  Generated by tools/genchecks.py. -/

namespace Verif

set_option maxRecDepth 1000000
set_option Elab.async false

def chunk{kind}{i} : List PyStr := us![{", ".join(f'"{x}"' for x in c)}]

theorem chunk{kind}{i}_one : (chunk{kind}{i}.take {len(c) // 2}).all {chk} = true := by decide +kernel
theorem chunk{kind}{i}_two : (chunk{kind}{i}.drop {len(c) // 2}).all {chk} = true := by decide +kernel

theorem chunk{kind}{i}_ok : chunk{kind}{i}.all {chk} = true := by
  rw [← List.take_append_drop {len(c) // 2} chunk{kind}{i}, List.all_append, chunk{kind}{i}_one, chunk{kind}{i}_two]; rfl

end Verif
'''
        open(f'{root}/Checks/{kind}{i}.lean', 'w').write(body)
        mods.append(f'Verif.Lib.Checks.{kind}{i}')
        names.setdefault(kind, []).append(f'chunk{kind}{i}')
out = [f'import {m}' for m in mods]
out += ['', '/-!', '# All plain scripts pass the checks', '', 'Generated by tools/genchecks.py.', '-/', '', 'namespace Verif', '']
for kind, chk, pred in [('Src', 'srcEvery', 'plainSrc'), ('Tgt', 'tgtEvery', 'plainTgt')]:
    ns = names[kind]
    out += [f'def chunks{kind} : List (List PyStr) := [{", ".join(ns)}]', '',
            f'theorem chunks{kind}_ok : ∀ c ∈ chunks{kind}, c.all {chk} = true := by',
            f'  unfold chunks{kind}']
    out += [f'  refine List.forall_mem_cons.2 ⟨{n}_ok, ?_⟩' for n in ns]
    out += ['  exact fun c hc => nomatch hc', '',
            f'set_option maxRecDepth 1000000 in',
            f'theorem chunks{kind}_all : (GM.IndicScripts ++ GM.LatinScripts).all (fun S => !({pred} S) || chunks{kind}.any (strMem S)) = true := by',
            '  decide +kernel', '',
            f'theorem {chk}_all {{S : PyStr}} (h : {pred} S = true) : {chk} S = true := by',
            f'  have hm : S ∈ GM.IndicScripts ++ GM.LatinScripts := by',
            f'    simp only [{pred}, Bool.and_eq_true, Bool.or_eq_true] at h',
            '    exact List.mem_append.2 (h.1.1.1.1.1.1.1.1.1.imp strMem_iff.1 strMem_iff.1)',
            f'  have := List.all_eq_true.1 chunks{kind}_all S hm',
            '  rw [h] at this',
            '  simp only [Bool.not_true, Bool.false_or, List.any_eq_true] at this',
            '  obtain ⟨c, hc, hS⟩ := this',
            f'  exact List.all_eq_true.1 (chunks{kind}_ok c hc) S (strMem_iff.1 hS)', '']
out += [r'''theorem srcFull_all {S : PyStr} (h : plainSrc S = true) : srcFull S = true := ((Bool.and_eq_true _ _).mp (srcEvery_all h)).1
theorem srcLines_all {S : PyStr} (h : plainSrc S = true) : srcLines S = true := ((Bool.and_eq_true _ _).mp (srcEvery_all h)).2
theorem tgtFull_all {T : PyStr} (h : plainTgt T = true) : tgtFull T = true :=
  ((Bool.and_eq_true _ _).mp ((Bool.and_eq_true _ _).mp (tgtEvery_all h)).1).1
theorem tgtFresh_all {T : PyStr} (h : plainTgt T = true) : tgtFresh T = true :=
  ((Bool.and_eq_true _ _).mp ((Bool.and_eq_true _ _).mp (tgtEvery_all h)).1).2
theorem tgtLines_all {T : PyStr} (h : plainTgt T = true) : tgtLines T = true := ((Bool.and_eq_true _ _).mp (tgtEvery_all h)).2
''']
out += ['end Verif']
open(root + '/PlainAll.lean', 'w').write('\n'.join(out) + '\n')
