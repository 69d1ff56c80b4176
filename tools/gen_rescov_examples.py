#!/usr/bin/env python3
"""Generates lean/Verif/Props/ResCovExamples.lean from the unit tests of section/32/151."""
import re, os
base = '/repo/src/ENDFtk/section/32/151'
MAT = 9222

def chunk(name, fn='chunk'):
    s = open(f'{base}/{name}/test/{name.split("/")[-1]}.test.cpp').read()
    m = re.search(r'^std::string ' + fn + r'\(\) \{(.*?)^\}', s, re.S | re.M)
    return [re.sub(r'\\n$', '', x) for x in re.findall(r'^\s*"(.*?)"', m.group(1), re.M)]

def tail(l, mt=151):
    return l[:66].ljust(66) + f'{MAT:4d}32{mt:3d}' + '     '

def cont(c1, c2, l1, l2, n1, n2, mt=151):
    return tail(f'{c1}{c2}{l1:11d}{l2:11d}{n1:11d}{n2:11d}', mt)

Z = ' 0.000000+0'
HEAD = lambda nis: cont(' 9.223500+4', ' 2.330250+2', 0, 0, nis, 0)
ISO = lambda ner, lfw=0: cont(' 9.223500+4', ' 1.000000+0', 0, lfw, ner, 0)
RNG = lambda lru, lrf, nro=0, naps=1: cont(' 1.000000-5', ' 2.250000+3', lru, lrf, nro, naps)
SEND = ' ' * 66 + f'{MAT:4d}32  0' + '     '
SEND = cont(Z, Z, 0, 0, 0, 0, 0)
SEND = '                                                                  ' + f'{MAT:4d}32  0     '

types = [('LimitedSingleLevelBreitWigner', 1, 1), ('LimitedMultiLevelBreitWigner', 1, 2),
         ('GeneralSingleLevelBreitWigner', 1, 1), ('GeneralMultiLevelBreitWigner', 1, 2), ('GeneralReichMoore', 1, 3), ('GeneralRMatrixLimited', 1, 7),
         ('CompactSingleLevelBreitWigner', 1, 1), ('CompactMultiLevelBreitWigner', 1, 2), ('CompactReichMoore', 1, 3), ('CompactRMatrixLimited', 1, 7),
         ('UnresolvedRelativeCovariances', 2, 1)]

out = []
def text(lines):
    return '\n'.join('    "' + l + '\\n"' for l in lines)

def section(parts):
    ls = [HEAD(1), ISO(len(parts))]
    for lru, lrf, p, radius in parts:
        ls.append(RNG(lru, lrf, 1 if radius else 0, 1))
        ls += [tail(x) for x in radius]
        ls += [tail(x) for x in p]
    return ls + [SEND]

for n, lru, lrf in types:
    out.append(f'theorem {n}_section : RoundTrips32 {MAT} 1 (txt\n' + text(section([(lru, lrf, chunk(n), [])])) + ') := by decide +kernel\n')
both = [(1, 3, chunk('CompactReichMoore'), chunk('ScatteringRadiusCovariances')), (2, 1, chunk('UnresolvedRelativeCovariances')[:0] or chunk('UnresolvedRelativeCovariances'), [])]
out.append(f'/-- Two ranges, the first one with scattering radius covariances: the counter is 2 too large. -/\ntheorem two_ranges_section : RoundTrips32 {MAT} 2 (txt\n' + text(section(both)) + ') := by decide +kernel\n')

bad = []
def reject(name, ls): bad.append(f'theorem {name} : Rejected32 (txt\n' + text(ls) + ') := by decide +kernel\n')
rm = chunk('CompactReichMoore')
good = section([(1, 3, rm, [])])
reject('wrong_lru', section([(0, 3, rm, [])]))
reject('wrong_lrf', section([(1, 4, rm, [])]))
reject('wrong_lcomp', section([(1, 3, [rm[0][:33] + '          3' + rm[0][44:]] + rm[1:], [])]))
reject('no_isotopes', [HEAD(0), SEND])
reject('missing_send', good[:-1])
reject('wrong_send', good[:-1] + [SEND[:70] + '33' + SEND[72:]])
reject('wrong_size', section([(1, 3, [rm[0], rm[1][:44] + '         12' + '          2' + rm[1][66:]] + rm[2:4] + rm[6:], [])]))
lim = chunk('LimitedSingleLevelBreitWigner', 'invalidSize')
reject('limited_no_l_values', section([(1, 1, lim, [])]))

cm = chunk('CompactCorrelationMatrix')
hdr = '''import Verif.Props.ResCov
import Verif.Section.CorrInstance
import Verif.Txt
/-
  Concrete sections 32/151: the texts of the unit tests in /repo/src/ENDFtk/section/32/151/*/test (the parameters, completed to a section) are parsed by
  the model, completely consumed, and printed as the same text; they show that the hypotheses of the theorems in `Verif/Props/ResCov.lean` are met for all types of
  parameters.  (Generated by tools/gen_rescov_examples.py.)
-/
set_option linter.unusedVariables false
set_option maxRecDepth 100000
namespace ENDFtk.Props
attribute [local instance] concDisco concCorr

instance (m : CorrMatrix) : Decidable (Faithful m) := by unfold Faithful CorrMatrix.Printable; exact inferInstance

/-- Parsed, completely consumed, the line counter is advanced by NC() + 1 and `k` more, the matrices can be printed without loss, the reals survive, printed as
    the same text. -/
def RoundTrips32 (mat : Int) (k : Nat) (s : Text) : Prop :=
  match mf32mt151.parse ⟨s, 0⟩ with
  | .ok (x, st) => st.rest = [] ∧ st.line = (mf32mt151.NC x + 1 + k : Nat) ∧ rangeCount x = k ∧ (∀ m ∈ matrices x, Faithful m) ∧ Reps (mf32mt151.realsSect x) ∧
      mf32mt151.print x mat 32 = .ok s
  | .error _ => False

instance (mat : Int) (k : Nat) (s : Text) : Decidable (RoundTrips32 mat k s) := by
  unfold RoundTrips32; split <;> exact inferInstance

/-- Rejected with `std::exception`. -/
def Rejected32 (s : Text) : Prop :=
  match mf32mt151.parse ⟨s, 0⟩ with
  | .ok _ => False
  | .error e => e.isStd = true

instance (s : Text) : Decidable (Rejected32 s) := by
  unfold Rejected32; split <;> exact inferInstance

'''
open('/verif/lean/Verif/Props/ResCovExamples.lean', 'w').write(hdr + '\n'.join(out) + '\n' + '\n'.join(bad) + '\nend ENDFtk.Props\n')
