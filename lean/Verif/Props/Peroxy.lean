import Verif.Gen.Peroxy
import Verif.Props.Parsing
import Mathlib.Algebra.BigOperators.Group.List.Basic

/-!
# C31: the peroxy radical sum
-/

namespace PyBox

/-- The index list saved by `write_RO2_indices`, `/repo/Parse_eqn_file.py` lines 2122–2125. -/
def ro2Indices (index : Dict Str Nat) : List Nat :=
  ro2Names.foldl (fun l name => match index.get? name with
    | some i => l ++ [i]
    | none => l) []

/-- `RO2=numpy.sum(y[RO2_indices])` after the list went through a `.npy` file: `/repo/ODE_solver.py`
lines 93 and 162. An empty list is saved as an array of floating point numbers, which cannot be used
as an index (`IndexError`). -/
def ro2Sum (indices : List Nat) (y : Nat → ℚ) : Except PyErr ℚ :=
  if indices = [] then .error .index else .ok (indices.map y).sum

namespace Spec

/-- The entries of the list of the source that are not names of radicals. -/
def damagedEntries : List Str :=
  ["IBUTALBO2,IBUTALCO2".toList, "C62NO33O2)".toList, "IPBZBIPRO2)".toList, "C2CL3OHAO2)".toList,
   "CCLNO3O2)".toList, "ETBEBO2)".toList, "HOCH2CO3)".toList, "MXYOLO2)".toList, "METLMUCCO3)".toList]

/-- The radicals those entries stand for. -/
def lostRadicals : List Str :=
  ["IBUTALBO2".toList, "IBUTALCO2".toList, "C62NO33O2".toList, "IPBZBIPRO2".toList, "C2CL3OHAO2".toList,
   "CCLNO3O2".toList, "ETBEBO2".toList, "HOCH2CO3".toList, "MXYOLO2".toList, "METLMUCCO3".toList]

/-- An index list is right for a species table: the index of every listed radical present, each once,
and nothing else. -/
def CountsRadicals (index : Dict Str Nat) (l : List Nat) : Prop :=
  l.Nodup ∧ ∀ i, i ∈ l ↔ ∃ name ∈ peroxyRadicals, index.get? name = some i

end Spec

open Spec

theorem ro2Indices_eq (index : Dict Str Nat) : ro2Indices index = ro2Names.filterMap index.get? := by
  unfold ro2Indices
  have : ∀ (l : List Str) (acc : List Nat), l.foldl (fun l name => match index.get? name with
      | some i => l ++ [i]
      | none => l) acc = acc ++ l.filterMap index.get? := by
    intro l
    induction l with
    | nil => intro acc; simp
    | cons a l ih =>
      intro acc
      rw [List.foldl_cons, ih, List.filterMap_cons]
      cases index.get? a <;> simp
  exact this _ []

/-! ### Facts about the list -/

/-- A text as a number, so that texts can be compared quickly. -/
def strCode (s : Str) : Nat := s.foldl (fun n c => n * 256 + c.toNat) 0

/-- All numbers are different: `seen` has a bit for every number met before. -/
def distinctFrom (seen : Nat) : List Nat → Bool
  | [] => true
  | a :: l => !seen.testBit a && distinctFrom (seen ||| 1 <<< a) l

theorem distinctFrom_nodup : ∀ (l : List Nat) (seen : Nat), distinctFrom seen l = true →
    l.Nodup ∧ ∀ a ∈ l, seen.testBit a = false
  | [], _, _ => ⟨List.nodup_nil, by simp⟩
  | a :: l, seen, h => by
    rw [distinctFrom, Bool.and_eq_true, Bool.not_eq_true'] at h
    obtain ⟨h1, h2⟩ := distinctFrom_nodup l _ h.2
    have h3 : ∀ b ∈ l, seen.testBit b = false ∧ a ≠ b := by
      intro b hb
      have := h2 b hb
      rw [Nat.testBit_or, Bool.or_eq_false_iff, Nat.one_shiftLeft, Nat.testBit_two_pow] at this
      exact ⟨this.1, by simpa using this.2⟩
    refine ⟨List.nodup_cons.2 ⟨fun hm => (h3 a hm).2 rfl, h1⟩, ?_⟩
    intro b hb
    rcases List.mem_cons.1 hb with rfl | hb
    · exact h.1
    · exact (h3 b hb).1

theorem ro2Names_nodup : ro2Names.Nodup :=
  List.Nodup.of_map (fun s => strCode s % 103081) (distinctFrom_nodup _ 0 (by decide +kernel)).1

/-- The list of the source is the published list, up to the damaged entries. -/
theorem ro2Names_filter :
    ro2Names.filter (fun s => !decide (s ∈ damagedEntries)) =
      peroxyRadicals.filter (fun s => !decide (s ∈ lostRadicals)) := by decide +kernel

theorem ro2_membership :
    (∀ s ∈ lostRadicals, s ∉ ro2Names) ∧ (∀ s ∈ damagedEntries, s ∈ ro2Names) ∧
    (∀ s ∈ damagedEntries, s ∉ peroxyRadicals) ∧ (∀ s ∈ lostRadicals, s ∈ peroxyRadicals) := by
  decide +kernel

theorem mem_ro2Names (s : Str) :
    s ∈ ro2Names ↔ (s ∈ peroxyRadicals ∧ s ∉ lostRadicals) ∨ s ∈ damagedEntries := by
  have hf : s ∈ ro2Names.filter (fun s => !decide (s ∈ damagedEntries)) ↔
      s ∈ peroxyRadicals.filter (fun s => !decide (s ∈ lostRadicals)) := by rw [ro2Names_filter]
  simp only [List.mem_filter, Bool.not_eq_true', decide_eq_false_iff_not] at hf
  obtain ⟨-, h2, -, -⟩ := ro2_membership
  constructor
  · intro h
    by_cases hd : s ∈ damagedEntries
    · exact Or.inr hd
    · exact Or.inl (hf.1 ⟨h, hd⟩)
  · rintro (h | h)
    · exact (hf.2 h).1
    · exact h2 s h

/-! ### C31 -/

theorem index_injective {text : Str} {m : Mechanism} (h : extractMechanism text = .ok m) {s s' : Str}
    {i : Nat} (hs : m.tables.index.get? s = some i) (hs' : m.tables.index.get? s' = some i) : s = s' := by
  rw [C01_inverse h] at hs hs'
  rw [hs] at hs'
  injection hs'

/-- Whatever the mechanism, no index is counted twice and every index is the index of a species. -/
theorem C31_once {text : Str} {m : Mechanism} (h : extractMechanism text = .ok m) :
    (ro2Indices m.tables.index).Nodup ∧
    ∀ i ∈ ro2Indices m.tables.index, i < m.tables.species.length := by
  rw [ro2Indices_eq]
  constructor
  · refine List.Nodup.filterMap ?_ ro2Names_nodup
    intro a b i ha hb
    exact index_injective h ha hb
  · intro i hi
    obtain ⟨name, _, hn⟩ := List.mem_filterMap.1 hi
    exact (C01_indices h i).1 ⟨name, hn⟩

/-- Exactly when the saved list is right: when the mechanism contains none of the ten radicals the
source misspells, and no species that is called as one of the nine misspellings. -/
theorem C31_exact {text : Str} {m : Mechanism} (h : extractMechanism text = .ok m) :
    CountsRadicals m.tables.index (ro2Indices m.tables.index) ↔
      ∀ s ∈ lostRadicals ++ damagedEntries, m.tables.index.get? s = none := by
  obtain ⟨h1, h2, h3, h4⟩ := ro2_membership
  have hmem : ∀ i, i ∈ ro2Indices m.tables.index ↔ ∃ name ∈ ro2Names, m.tables.index.get? name = some i := by
    intro i
    rw [ro2Indices_eq, List.mem_filterMap]
  constructor
  · rintro ⟨-, hc⟩ s hs
    cases hg : m.tables.index.get? s with
    | none => rfl
    | some i =>
      exfalso
      rcases List.mem_append.1 hs with hs | hs
      · obtain ⟨name, hn, hi⟩ := (hmem i).1 ((hc i).2 ⟨s, h4 s hs, hg⟩)
        rw [index_injective h hi hg] at hn
        exact h1 s hs hn
      · obtain ⟨name, hn, hi⟩ := (hc i).1 ((hmem i).2 ⟨s, h2 s hs, hg⟩)
        rw [index_injective h hi hg] at hn
        exact h3 s hs hn
  · intro hn
    refine ⟨(C31_once h).1, fun i => ?_⟩
    rw [hmem]
    constructor
    · rintro ⟨s, hs, hi⟩
      rcases (mem_ro2Names s).1 hs with hs | hs
      · exact ⟨s, hs.1, hi⟩
      · rw [hn s (List.mem_append_right _ hs)] at hi
        cases hi
    · rintro ⟨s, hs, hi⟩
      refine ⟨s, (mem_ro2Names s).2 (Or.inl ⟨hs, fun hl => ?_⟩), hi⟩
      rw [hn s (List.mem_append_left _ hl)] at hi
      cases hi

/-- C31 as stated. -/
def C31_Statement : Prop := ∀ (text : Str) (m : Mechanism), extractMechanism text = .ok m →
  CountsRadicals m.tables.index (ro2Indices m.tables.index)

def peroxyText : Str := "{1.} HOCH2CO3 + NO = NO2 + CH3O2 : KAPNO ;".toList

def peroxyMechanism : Mechanism :=
  match extractMechanism peroxyText with
  | .ok m => m
  | .error _ => ⟨{}, 0⟩

theorem peroxy_parses : extractMechanism peroxyText = .ok peroxyMechanism := by decide +kernel

/-- It is false: one of the radicals of the shipped alpha-pinene mechanism is not counted. -/
theorem C31_false : ¬ C31_Statement := by
  intro h
  have := (C31_exact peroxy_parses).1 (h _ _ peroxy_parses) "HOCH2CO3".toList (by decide +kernel)
  revert this
  decide +kernel

/-- What does hold: without the misspelled names the list is right. -/
theorem C31_radicals_partial {text : Str} {m : Mechanism} (h : extractMechanism text = .ok m)
    (hn : ∀ s ∈ lostRadicals ++ damagedEntries, m.tables.index.get? s = none) :
    CountsRadicals m.tables.index (ro2Indices m.tables.index) := (C31_exact h).2 hn

/-- Without any listed radical the sum cannot be evaluated. -/
theorem C31_none_fails {text : Str} {m : Mechanism} (_ : extractMechanism text = .ok m) (y : Nat → ℚ) :
    (∃ v, ro2Sum (ro2Indices m.tables.index) y = .ok v) ↔
      ∃ s ∈ ro2Names, (m.tables.index.get? s).isSome := by
  unfold ro2Sum
  rw [ro2Indices_eq]
  constructor
  · rintro ⟨v, hv⟩
    by_contra hn
    rw [if_pos] at hv
    · cases hv
    · rw [List.filterMap_eq_nil_iff]
      intro s hs
      cases hg : m.tables.index.get? s with
      | none => rfl
      | some i => exact absurd ⟨s, hs, by rw [hg]; rfl⟩ hn
  · rintro ⟨s, hs, hg⟩
    rw [if_neg]
    · exact ⟨_, rfl⟩
    · intro he
      rw [List.filterMap_eq_nil_iff] at he
      rw [he s hs] at hg
      cases hg

/-- The sample meets the hypothesis of `C31_radicals_partial`; with methyl peroxy instead the list is
not empty. -/
example : (∀ s ∈ lostRadicals ++ damagedEntries,
    ((match extractMechanism "{1.} CH3O2 + NO = NO2 + HO2 : KRO2NO ;".toList with
      | .ok m => m.tables.index
      | .error _ => []).get? s = none)) ∧
    ro2Indices peroxyMechanism.tables.index = [3] := by decide +kernel

end PyBox
