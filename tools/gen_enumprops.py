#!/usr/bin/env python3
"""Writes Verif/Props/Enums.lean: C32 for every enumeration stored as a number."""
import re
src = open('/verif/lean/Verif/Model/Enums.lean').read()
names = re.findall(r'^inductive (\w+)', src, re.M)
strict = [n for n in names if f'def {n}.ofU32 ' in src and n not in ('GateType', 'TriggerShape', 'ToneMapper')]
other = [n for n in names if n not in strict]
out = ['''import Verif.Lemmas.Enums
/-!
# C32: enumerations and their stored numbers

Generated by tools/gen_enumprops.py.
-/
namespace Vpin

/-- A setting `E` and its stored number are in one-to-one correspondence: different settings have
different numbers, a number is read as a setting exactly if it is the number of that setting, and
every other number is refused (with a panic). -/
structure OneToOne {E N : Type} (number : E → N) (ofNumber : N → Res E) : Prop where
  distinct : ∀ a b, number a = number b → a = b
  exact : ∀ n v, ofNumber n = .ok v ↔ number v = n
  refused : ∀ n, (∀ v, number v ≠ n) → ofNumber n = .error .panic

/-- The JSON value of a setting is read as that setting, and different settings have different
JSON values. -/
structure JsonNames {E : Type} (json : E → J) (ofJson : J → Res E) : Prop where
  back : ∀ v, ofJson (json v) = .ok v
  distinct : ∀ a b, json a = json b → a = b

theorem JsonNames.mk' {E : Type} {json : E → J} {ofJson : J → Res E}
    (h : ∀ v, ofJson (json v) = .ok v) : JsonNames json ofJson := by
  refine ⟨h, fun a b e => ?_⟩
  have h1 := h a
  rw [e, h b] at h1
  exact (Except.ok.inj h1).symm

/-- how the laws follow from a finite check of the settings and a case split on the number -/
theorem OneToOne.mk' {E N : Type} {number : E → N} {ofNumber : N → Res E}
    (hb : ∀ v, ofNumber (number v) = .ok v)
    (hf : ∀ n, (∃ v, number v = n) ∨ ofNumber n = .error .panic) : OneToOne number ofNumber := by
  refine ⟨fun a b e => ?_, fun n v => ⟨fun h => ?_, fun h => h ▸ hb v⟩, fun n h => ?_⟩
  · have h1 := hb a
    rw [e, hb b] at h1
    exact (Except.ok.inj h1).symm
  · rcases hf n with ⟨u, rfl⟩ | h'
    · rw [hb u] at h; cases h; rfl
    · rw [h'] at h; cases h
  · rcases hf n with ⟨u, hu⟩ | h'
    · exact absurd hu (h u)
    · exact h'
''']
done, jdone = [], []
for n in names:
    if n not in ('GateType', 'TriggerShape', 'ToneMapper'):
        w = 'I32' if n == 'MaterialType' else 'U32'
        m = re.search(r'def %s\.of%s .*?\n((?:  .*\n)+)' % (n, w), src).group(1)
        arms = re.findall(r'if n = (\(-1\)|\w+) then \.ok \.(\w+)', m)
        out.append(f'''
theorem {n}.oneToOne : OneToOne {n}.to{w} {n}.of{w} := by
  refine .mk' (fun v => by cases v <;> rfl) (fun n => ?_)
  unfold {n}.of{w}''')
        for i, (num, v) in enumerate(arms):
            out.append(f'  by_cases h{i} : n = {num}\n  · exact .inl ⟨.{v}, h{i}.symm⟩')
        out.append('  rw [' + ', '.join(f'if_neg h{i}' for i, _ in enumerate(arms)) + ']\n  exact .inr rfl')
        done.append((n, w))
    if f'def {n}.toJ' in src:
        jdone.append(n)
        if n in ('GateType', 'ToneMapper'): continue
        out.append(f'''
theorem {n}.jsonNames : JsonNames {n}.toJ {n}.ofJ := .mk' (fun v => by cases v <;> rfl)''')
out.append('''
/-- C32: every enumerated setting that accepts only its own numbers. -/
theorem C32_one_to_one :
    ''' + ' ∧\n    '.join(f'OneToOne {n}.to{w} {n}.of{w}' for n, w in done) + ' :=\n  ⟨' +
    ',\n   '.join(f'{n}.oneToOne' for n, _ in done) + '⟩\n')
out.append('''/-- C32: the shape of a trigger: numbers 0 to 7 are the eight shapes, every other number is read as
the shape "wire A" (and so is not preserved). -/
theorem C32_trigger_shape :
    (∀ v, TriggerShape.ofU32 v.toU32 = .ok v) ∧
    (∀ a b : TriggerShape, a.toU32 = b.toU32 → a = b) ∧
    (∀ n : UInt32, n ≤ 7 → ∃ v, TriggerShape.ofU32 n = .ok v ∧ v.toU32 = n) ∧
    (∀ n : UInt32, 7 < n → TriggerShape.ofU32 n = .ok .WireA) := by
  refine ⟨TriggerShape.ofU32_toU32, fun a b => ?_, fun n hn => ?_, fun n hn => ?_⟩
  · cases a <;> cases b <;> decide
  · have : n = 0 ∨ n = 1 ∨ n = 2 ∨ n = 3 ∨ n = 4 ∨ n = 5 ∨ n = 6 ∨ n = 7 := by
      simp only [← UInt32.toNat_inj, UInt32.reduceToNat]
      have := UInt32.le_iff_toNat_le.1 hn
      simp only [UInt32.reduceToNat] at this
      omega
    rcases this with rfl | rfl | rfl | rfl | rfl | rfl | rfl | rfl <;> exact ⟨_, rfl, rfl⟩
  · have hne : ∀ m : UInt32, m ≤ 7 → ¬ n = m := fun m hm e => by
      rw [e] at hn; exact absurd hm (UInt32.not_le.2 hn)
    unfold TriggerShape.ofU32
    rw [if_neg (hne 0 (by decide)), if_neg (hne 1 (by decide)), if_neg (hne 2 (by decide)),
      if_neg (hne 3 (by decide)), if_neg (hne 4 (by decide)), if_neg (hne 5 (by decide)),
      if_neg (hne 6 (by decide)), if_neg (hne 7 (by decide))]

/-- C32: gate types and tone mappers keep numbers they do not know: every number is read, and
stored back as the same number. -/
theorem C32_open_enumerations :
    (∀ n : UInt32, ∃ v, GateType.ofU32 n = .ok v ∧ v.toU32 = n) ∧
    (∀ v : GateType, v.WF → GateType.ofU32 v.toU32 = .ok v) ∧
    (∀ n : UInt32, ∃ v, ToneMapper.ofU32 n = .ok v ∧ v.toU32 = n) ∧
    (∀ v : ToneMapper, v.WF → ToneMapper.ofU32 v.toU32 = .ok v) := by
  refine ⟨fun n => ?_, GateType.ofU32_toU32, fun n => ?_, ToneMapper.ofU32_toU32⟩
  · unfold GateType.ofU32
    repeat' split
    all_goals exact ⟨_, rfl, by first | exact Eq.symm (by assumption) | rfl⟩
  · unfold ToneMapper.ofU32
    repeat' split
    all_goals exact ⟨_, rfl, by first | exact Eq.symm (by assumption) | rfl⟩

/-- C32: the variant for unknown numbers is not kept when it holds a known one. -/
theorem C32_unknown_holding_known_number :
    GateType.ofU32 (GateType.Unknown 2).toU32 ≠ .ok (.Unknown 2) ∧
    ToneMapper.ofU32 (ToneMapper.Other 1).toU32 ≠ .ok (.Other 1) := by
  constructor <;> (intro h; cases h)

theorem GateType.jsonBack (v : GateType) (h : v.WF) : GateType.ofJ v.toJ = .ok v := by
  cases v with
  | Unknown n =>
    have hn : 0 ≤ (n.toNat : Int) ∧ (n.toNat : Int) < 2 ^ 32 := by
      have := n.toNat_lt
      omega
    have e : GateType.ofJ (.num n.toNat) = GateType.ofU32 (UInt32.ofNat ((n.toNat : Int)).toNat) := by
      simp only [GateType.ofJ]
      rw [if_pos hn]
    have := GateType.ofU32_toU32 _ h
    simp only [GateType.toU32] at this
    simp only [GateType.toJ]
    rw [e, Int.toNat_natCast, UInt32.ofNat_toNat, this]
  | _ => rfl

theorem ToneMapper.jsonBack (v : ToneMapper) (h : v.WF) : ToneMapper.ofJ v.toJ = .ok v := by
  cases v with
  | Other n =>
    have hn : 0 ≤ (n.toNat : Int) ∧ (n.toNat : Int) < 2 ^ 32 := by
      have := n.toNat_lt
      omega
    have e : ToneMapper.ofJ (.num n.toNat) = ToneMapper.ofU32 (UInt32.ofNat ((n.toNat : Int)).toNat) := by
      simp only [ToneMapper.ofJ]
      rw [if_pos hn]
    have := ToneMapper.ofU32_toU32 _ h
    simp only [ToneMapper.toU32] at this
    simp only [ToneMapper.toJ]
    rw [e, Int.toNat_natCast, UInt32.ofNat_toNat, this]
  | _ => rfl

/-- not vacuous -/
example : (GateType.Unknown 77).WF ∧ (ToneMapper.Other 9).WF := by decide
''')
js = [n for n in jdone if n not in ('GateType', 'ToneMapper')]
out.append('''/-- C32: the names of settings in JSON. -/
theorem C32_json_names :
    ''' + ' ∧\n    '.join(f'JsonNames {n}.toJ {n}.ofJ' for n in js) + ''' ∧
    (∀ v : GateType, v.WF → GateType.ofJ v.toJ = .ok v) ∧
    (∀ v : ToneMapper, v.WF → ToneMapper.ofJ v.toJ = .ok v) :=
  ⟨''' + ',\n   '.join(f'{n}.jsonNames' for n in js) + ''',
   GateType.jsonBack, ToneMapper.jsonBack⟩
''')
open('/verif/lean/Verif/Props/Enums.lean', 'w').write('\n'.join(out) + '\nend Vpin\n')
