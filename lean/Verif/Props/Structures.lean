import Verif.Parse.Structures
import Verif.Parse.Species
import Mathlib.Data.List.Induction
import Mathlib.Tactic.Linarith

/-!
# Species snapshots (C45) and structures (C46)
-/

namespace PyBox

namespace Spec

/-- The structure a line of a snapshot file starts with. -/
def lineName (line : Str) : Option Str := (words line).head?

/-- Line `k` of the file is the first that names `s`, with `v` behind the name. -/
structure FirstLine (lines : List Str) (k : ℕ) (s v : Str) : Prop where
  here : ∃ l rest, lines[k]? = some l ∧ words l = s :: v :: rest
  first : ∀ (j : ℕ) (l : Str), j < k → lines[j]? = some l → lineName l ≠ some s

/-- The record concerns a species of the mechanism that is not one of the oxidants. -/
def Relevant (species : Dict ℕ Str) (n : Node) : Prop :=
  ∃ s i, n.name = some s ∧ species.get? i = some s ∧
    s ≠ "OH".toList ∧ s ≠ "HO2".toList ∧ s ≠ "O3".toList ∧ s ≠ "hv".toList

/-- C46 in full: what is stored for a species is given in a record of that species. -/
def C46_Statement : Prop :=
  ∀ (O : Type) (species : Dict ℕ Str) (read : Str → Except PyErr O) (nodes : List Node)
    (smiles : Dict Str Str) (pybel : Dict Str O), species.keys.Nodup →
    extractSmiles species read nodes = .ok (smiles, pybel) →
    ∀ name s, smiles.get? name = some s → ∃ n ∈ nodes, n.name = some name ∧ n.smiles = some s

end Spec

open Spec

/-! ## C45 -/

theorem foldlM_snoc {α β : Type} (f : β → α → Except PyErr β) (b : β) (l : List α) (a : α) :
    (l ++ [a]).foldlM f b = (l.foldlM f b).bind (fun r => f r a) := by
  rw [List.foldlM_append]
  cases l.foldlM f b with
  | error e => rfl
  | ok r =>
    simp only [List.foldlM_cons, List.foldlM_nil, bind, Except.bind]
    cases f r a <;> rfl

/-- What holds after reading `lines`. -/
structure SnapInv {O : Type} (toFloat : Str → Except PyErr ℚ) (read : Str → Except PyErr O)
    (lines : List Str) (r : Snapshot O) : Prop where
  nodup : r.array.Nodup
  species_eq : r.species = r.array.zipIdx.map (fun p => (p.2, p.1))
  index_eq : r.index = r.array.zipIdx
  next_eq : r.next = r.array.length
  smiles_eq : r.smiles = r.array.map (fun s => (s, s))
  conc_len : r.conc.length = r.array.length
  pybel_keys : r.pybel.keys = r.array
  activity_keys : r.activity.keys = List.range r.array.length
  concOf_keys : r.concOf.keys = List.range r.array.length
  nonblank : ∀ l ∈ lines, (lineName l).isSome
  mem : ∀ s, s ∈ r.array ↔ ∃ l ∈ lines, lineName l = some s
  order : r.array.Pairwise (fun a b =>
    (lines.map lineName).idxOf (some a) < (lines.map lineName).idxOf (some b))
  entry : ∀ (i : ℕ) (s : Str), r.array[i]? = some s → ∃ k v c o, FirstLine lines k s v ∧
    toFloat v = .ok c ∧ read s = .ok o ∧ r.conc[i]? = some c ∧ r.pybel.get? s = some (i, o) ∧
    r.activity.get? i = some c ∧ r.concOf.get? i = some c

theorem Spec.FirstLine.snoc {lines : List Str} {k : ℕ} {s v : Str} (h : FirstLine lines k s v)
    (l : Str) : FirstLine (lines ++ [l]) k s v := by
  obtain ⟨⟨m, rest, h1, h2⟩, h3⟩ := h
  have hk : k < lines.length := (List.getElem?_eq_some_iff.1 h1).1
  refine ⟨⟨m, rest, by rw [List.getElem?_append_left hk]; exact h1, h2⟩, ?_⟩
  intro j l' hj hl'
  rw [List.getElem?_append_left (by omega)] at hl'
  exact h3 j l' hj hl'

theorem SnapInv.values {O : Type} {toFloat : Str → Except PyErr ℚ} {read : Str → Except PyErr O}
    {lines : List Str} {r : Snapshot O} (h : SnapInv toFloat read lines r) :
    r.species.values = r.array := by
  rw [h.species_eq]
  simp only [Dict.values, List.map_map, Function.comp_def]
  exact List.zipIdx_map_fst 0 r.array

theorem SnapInv.nil {O : Type} (toFloat : Str → Except PyErr ℚ) (read : Str → Except PyErr O) :
    SnapInv toFloat read [] ({} : Snapshot O) :=
  { nodup := List.nodup_nil
    species_eq := rfl
    index_eq := rfl
    next_eq := rfl
    smiles_eq := rfl
    conc_len := rfl
    pybel_keys := rfl
    activity_keys := rfl
    concOf_keys := rfl
    nonblank := by simp
    mem := by simp
    order := List.Pairwise.nil
    entry := by simp }

theorem keys_set_new {α β : Type} [DecidableEq α] (d : Dict α β) (k : α) (v : β)
    (h : k ∉ d.keys) : (d.set k v).keys = d.keys ++ [k] := by
  rw [Dict.set_of_not_mem h]; simp [Dict.keys]

theorem SnapInv.step {O : Type} {toFloat : Str → Except PyErr ℚ} {read : Str → Except PyErr O}
    {lines : List Str} {r r' : Snapshot O} (h : SnapInv toFloat read lines r) (line : Str)
    (hs : snapshotStep toFloat read r line = .ok r') :
    SnapInv toFloat read (lines ++ [line]) r' := by
  unfold snapshotStep at hs
  cases hw : words line with
  | nil => rw [hw] at hs; cases hs
  | cons s rest =>
    have hname : lineName line = some s := by simp [lineName, hw]
    have hidx : ∀ a ∈ r.array, ((lines ++ [line]).map lineName).idxOf (some a)
        = (lines.map lineName).idxOf (some a) := by
      intro a ha
      rw [List.map_append, List.idxOf_append_of_mem]
      obtain ⟨l, h1, h2⟩ := (h.mem a).1 ha
      exact List.mem_map.2 ⟨l, h1, h2⟩
    have hblank : ∀ l ∈ lines ++ [line], (lineName l).isSome := by
      intro l hl
      rcases List.mem_append.1 hl with hl | hl
      · exact h.nonblank l hl
      · rw [List.mem_singleton.1 hl, hname]; rfl
    simp only [hw, h.values] at hs
    by_cases hm : s ∈ r.array
    · rw [if_pos hm] at hs
      cases hs
      refine { h with nonblank := hblank, mem := ?_, order := ?_, entry := ?_ }
      · intro a
        rw [h.mem a]
        constructor
        · rintro ⟨l, h1, h2⟩; exact ⟨l, by simp [h1], h2⟩
        · rintro ⟨l, h1, h2⟩
          rcases List.mem_append.1 h1 with h1 | h1
          · exact ⟨l, h1, h2⟩
          · rw [List.mem_singleton.1 h1, hname] at h2
            cases h2
            exact (h.mem s).1 hm
      · refine List.Pairwise.imp_of_mem ?_ h.order
        intro a b ha hb hab
        rw [hidx a ha, hidx b hb]; exact hab
      · intro i a ha
        obtain ⟨k, v, c, o, h1, h2⟩ := h.entry i a ha
        exact ⟨k, v, c, o, h1.snoc line, h2⟩
    · rw [if_neg hm] at hs
      cases rest with
      | nil => cases hs
      | cons v rest =>
        cases hc : toFloat v with
        | error e => simp only [hc] at hs; cases hs
        | ok c =>
          cases ho : read s with
          | error e => simp only [hc, ho] at hs; cases hs
          | ok o =>
            simp only [hc, ho] at hs
            cases hs
            have hnk : r.next ∉ List.range r.array.length := by rw [h.next_eq]; simp
            have hi1 : (lines.map lineName).idxOf (some s) = lines.length := by
              rw [List.idxOf_eq_length, List.length_map]
              intro hmem
              obtain ⟨l, h1, h2⟩ := List.mem_map.1 hmem
              exact hm ((h.mem s).2 ⟨l, h1, h2⟩)
            have hi2 : ((lines ++ [line]).map lineName).idxOf (some s) = lines.length := by
              rw [List.map_append, List.idxOf_append_of_notMem]
              · simp [hname]
              · intro hmem
                obtain ⟨l, h1, h2⟩ := List.mem_map.1 hmem
                exact hm ((h.mem s).2 ⟨l, h1, h2⟩)
            refine
              { nodup := ?_, species_eq := ?_, index_eq := ?_, next_eq := by simp [h.next_eq]
                smiles_eq := ?_, conc_len := by simp [h.conc_len]
                pybel_keys := ?_, activity_keys := ?_, concOf_keys := ?_
                nonblank := hblank, mem := ?_, order := ?_, entry := ?_ }
            · rw [List.nodup_append]
              refine ⟨h.nodup, by simp, ?_⟩
              intro a ha b hb
              simp only [List.mem_singleton] at hb
              subst hb
              rintro rfl
              exact hm ha
            · simp only
              rw [h.species_eq, h.next_eq, Dict.set_of_not_mem]
              · simp [List.zipIdx_append]
              · rw [zipIdx_swap_keys]; simp
            · simp only
              rw [h.index_eq, h.next_eq, Dict.set_of_not_mem]
              · simp [List.zipIdx_append]
              · rw [zipIdx_keys]; exact hm
            · simp only
              rw [h.smiles_eq, Dict.set_of_not_mem]
              · simp
              · simpa [Dict.keys, Function.comp_def] using hm
            · simp only
              rw [keys_set_new _ _ _ (by rw [h.pybel_keys]; exact hm), h.pybel_keys]
            · simp only
              rw [keys_set_new _ _ _ (by rw [h.activity_keys]; exact hnk), h.activity_keys,
                h.next_eq]
              simp [List.range_succ]
            · simp only
              rw [keys_set_new _ _ _ (by rw [h.concOf_keys]; exact hnk), h.concOf_keys,
                h.next_eq]
              simp [List.range_succ]
            · intro a
              simp only [List.mem_append, List.mem_singleton, h.mem a]
              constructor
              · rintro (⟨l, h1, h2⟩ | rfl)
                · exact ⟨l, Or.inl h1, h2⟩
                · exact ⟨line, Or.inr rfl, hname⟩
              · rintro ⟨l, h1 | rfl, h2⟩
                · exact Or.inl ⟨l, h1, h2⟩
                · right; rw [hname] at h2; cases h2; rfl
            · rw [List.pairwise_append]
              refine ⟨?_, by simp, ?_⟩
              · refine List.Pairwise.imp_of_mem ?_ h.order
                intro a b ha hb hab
                rw [hidx a ha, hidx b hb]; exact hab
              · intro a ha b hb
                rw [List.mem_singleton.1 hb, hidx a ha, hi2]
                obtain ⟨l, h1, h2⟩ := (h.mem a).1 ha
                have := List.idxOf_lt_length_of_mem (List.mem_map.2 ⟨l, h1, h2⟩)
                simpa using this
            · intro i a ha
              simp only at ha ⊢
              rcases Nat.lt_or_ge i r.array.length with hi | hi
              · rw [List.getElem?_append_left hi] at ha
                obtain ⟨k, v', c', o', g1, g2, g3, g4, g5, g6, g7⟩ := h.entry i a ha
                have hne : a ≠ s := by
                  rintro rfl; exact hm (List.mem_of_getElem? ha)
                have hne' : i ≠ r.next := by rw [h.next_eq]; omega
                refine ⟨k, v', c', o', g1.snoc line, g2, g3, ?_, ?_, ?_, ?_⟩
                · rw [List.getElem?_append_left (by rw [h.conc_len]; exact hi)]; exact g4
                · rw [Dict.get?_set_ne _ _ hne]; exact g5
                · rw [Dict.get?_set_ne _ _ hne']; exact g6
                · rw [Dict.get?_set_ne _ _ hne']; exact g7
              · rw [List.getElem?_append_right hi] at ha
                have hi0 : i - r.array.length = 0 := by
                  by_contra h0
                  rw [List.getElem?_eq_none (by simp; omega)] at ha
                  cases ha
                have hii : i = r.next := by rw [h.next_eq]; omega
                rw [hi0] at ha
                simp only [List.getElem?_cons_zero, Option.some.injEq] at ha
                subst ha
                subst hii
                refine ⟨lines.length, v, c, o, ⟨⟨line, rest, by simp, hw⟩, ?_⟩, hc, ho, ?_, ?_,
                  ?_, ?_⟩
                · intro j l hj hl
                  rw [List.getElem?_append_left hj] at hl
                  intro he
                  exact hm ((h.mem s).2 ⟨l, List.mem_of_getElem? hl, he⟩)
                · rw [h.next_eq, ← h.conc_len]; simp
                · simp
                · simp
                · simp

theorem snapInv {O : Type} {toFloat : Str → Except PyErr ℚ} {read : Str → Except PyErr O}
    (lines : List Str) : ∀ r, extractSpecies toFloat read lines = .ok r →
      SnapInv toFloat read lines r := by
  induction lines using List.reverseRecOn with
  | nil => intro r h; cases h; exact SnapInv.nil _ _
  | append_singleton lines line ih =>
    intro r h
    unfold extractSpecies at h
    rw [foldlM_snoc] at h
    cases h0 : lines.foldlM (snapshotStep toFloat read) ({} : Snapshot O) with
    | error e => rw [h0] at h; cases h
    | ok r0 =>
      rw [h0] at h
      exact (ih r0 h0).step line h

/-- C45: the structures found are those the lines start with. -/
theorem C45_species {O : Type} {toFloat : Str → Except PyErr ℚ} {read : Str → Except PyErr O}
    {lines : List Str} {r : Snapshot O} (h : extractSpecies toFloat read lines = .ok r) (s : Str) :
    (∃ i, r.index.get? s = some i) ↔ ∃ l ∈ lines, lineName l = some s := by
  have hi := snapInv lines r h
  rw [← hi.mem, hi.index_eq]
  have := Dict.get?_isSome_iff (r.array.zipIdx : Dict Str ℕ) s
  rw [zipIdx_keys] at this
  rw [← this, Option.isSome_iff_exists]

theorem zipIdx_get?' (ns : List Str) (hn : ns.Nodup) (s : Str) (i : ℕ) :
    Dict.get? (ns.zipIdx : Dict Str ℕ) s = some i ↔ ns[i]? = some s := by
  rw [Dict.get?_eq_some_iff (by rw [zipIdx_keys]; exact hn), List.mem_zipIdx_iff_getElem?]

theorem zipIdx_swap_get?' (ns : List Str) (s : Str) (i : ℕ) :
    Dict.get? (ns.zipIdx.map (fun p => (p.2, p.1)) : Dict ℕ Str) i = some s ↔
      ns[i]? = some s := by
  have hn : (Dict.keys (ns.zipIdx.map (fun p => (p.2, p.1)) : Dict ℕ Str)).Nodup := by
    simp only [Dict.keys, List.map_map, Function.comp_def]
    rw [show (fun x : Str × Nat => x.2) = Prod.snd from rfl, List.zipIdx_map_snd]
    exact List.nodup_range'
  rw [Dict.get?_eq_some_iff hn, List.mem_map]
  constructor
  · rintro ⟨⟨a, b⟩, h1, h2⟩
    cases h2
    exact List.mem_zipIdx_iff_getElem?.1 h1
  · intro h
    exact ⟨(s, i), List.mem_zipIdx_iff_getElem?.2 h, rfl⟩

/-- C45: the indices are `0, …, n-1`, each for one structure; both dictionaries and the array
agree on it. -/
theorem C45_dense {O : Type} {toFloat : Str → Except PyErr ℚ} {read : Str → Except PyErr O}
    {lines : List Str} {r : Snapshot O} (h : extractSpecies toFloat read lines = .ok r) :
    (∀ s i, r.index.get? s = some i ↔ r.species.get? i = some s) ∧
    (∀ s i, r.index.get? s = some i ↔ r.array[i]? = some s) ∧
    (∀ i, (∃ s, r.index.get? s = some i) ↔ i < r.next) ∧
    r.array.length = r.next ∧ r.conc.length = r.next ∧ r.species.length = r.next ∧
    r.index.length = r.next ∧ r.pybel.length = r.next ∧ r.smiles.length = r.next ∧
    r.concOf.length = r.next := by
  have hi := snapInv lines r h
  have h1 : ∀ s i, r.index.get? s = some i ↔ r.array[i]? = some s := by
    intro s i; rw [hi.index_eq]; exact zipIdx_get?' _ hi.nodup s i
  refine ⟨?_, h1, ?_, hi.next_eq.symm, by rw [hi.conc_len, hi.next_eq], ?_, ?_, ?_, ?_, ?_⟩
  · intro s i; rw [h1, hi.species_eq]; exact (zipIdx_swap_get?' _ s i).symm
  · intro i
    simp only [h1]
    rw [hi.next_eq]
    constructor
    · rintro ⟨s, hs⟩; exact (List.getElem?_eq_some_iff.1 hs).1
    · intro hlt; exact ⟨r.array[i], List.getElem?_eq_getElem hlt⟩
  · rw [hi.species_eq, hi.next_eq]; simp
  · rw [hi.index_eq, hi.next_eq]; simp
  · rw [hi.next_eq, ← hi.pybel_keys]; simp [Dict.keys]
  · rw [hi.smiles_eq, hi.next_eq]; simp
  · have := congrArg List.length hi.concOf_keys
    rw [hi.next_eq]
    simpa [Dict.keys] using this

/-- C45: indices follow the order of first appearance. -/
theorem C45_order {O : Type} {toFloat : Str → Except PyErr ℚ} {read : Str → Except PyErr O}
    {lines : List Str} {r : Snapshot O} (h : extractSpecies toFloat read lines = .ok r)
    {s s' v v' : Str} {i i' k k' : ℕ} (hs : r.index.get? s = some i)
    (hs' : r.index.get? s' = some i') (hk : FirstLine lines k s v)
    (hk' : FirstLine lines k' s' v') : i < i' ↔ k < k' := by
  have hi := snapInv lines r h
  have hpos : ∀ {s v : Str} {k : ℕ}, FirstLine lines k s v →
      (lines.map lineName).idxOf (some s) = k := by
    intro s v k hf
    obtain ⟨⟨l, rest, h1, h2⟩, h3⟩ := hf
    have hk : k < lines.length := (List.getElem?_eq_some_iff.1 h1).1
    obtain ⟨_, h1'⟩ := List.getElem?_eq_some_iff.1 h1
    unfold List.idxOf
    rw [List.findIdx_eq (by simpa using hk)]
    constructor
    · simp [h1', lineName, h2]
    · intro j hj
      have := h3 j lines[j] hj (List.getElem?_eq_getElem (by omega))
      simpa using this
  rw [hi.index_eq, zipIdx_get?' _ hi.nodup] at hs hs'
  have ho := hi.order
  rw [List.pairwise_iff_getElem] at ho
  obtain ⟨hl, he⟩ := List.getElem?_eq_some_iff.1 hs
  obtain ⟨hl', he'⟩ := List.getElem?_eq_some_iff.1 hs'
  rw [← hpos hk, ← hpos hk', ← he, ← he']
  constructor
  · intro hlt; exact ho i i' hl hl' hlt
  · intro hlt
    rcases Nat.lt_trichotomy i i' with g | g | g
    · exact g
    · subst g; omega
    · have := ho i' i hl' hl g; omega

/-- C45: the concentration and the object of a structure are those of its first line; later
lines do not matter. -/
theorem C45_first {O : Type} {toFloat : Str → Except PyErr ℚ} {read : Str → Except PyErr O}
    {lines : List Str} {r : Snapshot O} (h : extractSpecies toFloat read lines = .ok r)
    {s : Str} {i : ℕ} (hs : r.index.get? s = some i) :
    ∃ k v c o, FirstLine lines k s v ∧ toFloat v = .ok c ∧ read s = .ok o ∧
      r.conc[i]? = some c ∧ r.smiles.get? s = some s ∧ r.pybel.get? s = some (i, o) ∧
      r.activity.get? i = some c ∧ r.concOf.get? i = some c := by
  have hi := snapInv lines r h
  rw [hi.index_eq, zipIdx_get?' _ hi.nodup] at hs
  obtain ⟨k, v, c, o, h1, h2, h3, h4, h5, h6, h7⟩ := hi.entry i s hs
  refine ⟨k, v, c, o, h1, h2, h3, h4, ?_, h5, h6, h7⟩
  rw [hi.smiles_eq]
  apply Dict.get?_eq_some_of_mem
  · simpa [Dict.keys, Function.comp_def] using hi.nodup
  · exact List.mem_map.2 ⟨s, List.mem_of_getElem? hs, rfl⟩

/-- C45: reading succeeds exactly if no line is blank and the first line of every structure
gives a number and a readable structure. -/
theorem C45_reads {O : Type} (toFloat : Str → Except PyErr ℚ) (read : Str → Except PyErr O)
    (lines : List Str) : (∃ r, extractSpecies toFloat read lines = .ok r) ↔
      ∀ (k : ℕ) (l : Str), lines[k]? = some l → ∃ s rest, words l = s :: rest ∧
        ((∃ (j : ℕ) (l' : Str), j < k ∧ lines[j]? = some l' ∧ lineName l' = some s) ∨
          ∃ v rest' c o, rest = v :: rest' ∧ toFloat v = .ok c ∧ read s = .ok o) := by
  induction lines using List.reverseRecOn with
  | nil => exact ⟨fun _ => by simp, fun _ => ⟨{}, rfl⟩⟩
  | append_singleton lines line ih =>
    constructor
    · rintro ⟨r, h⟩ k l hl
      unfold extractSpecies at h
      rw [foldlM_snoc] at h
      cases h0 : lines.foldlM (snapshotStep toFloat read) ({} : Snapshot O) with
      | error e => rw [h0] at h; cases h
      | ok r0 =>
        rcases Nat.lt_or_ge k lines.length with hk | hk
        · rw [List.getElem?_append_left hk] at hl
          obtain ⟨s, rest, h1, h2⟩ := ih.1 ⟨r0, h0⟩ k l hl
          refine ⟨s, rest, h1, ?_⟩
          rcases h2 with ⟨j, l', g1, g2, g3⟩ | h2
          · exact Or.inl ⟨j, l', g1, by rw [List.getElem?_append_left (by omega)]; exact g2, g3⟩
          · exact Or.inr h2
        · have hk' : k = lines.length := by
            have := (List.getElem?_eq_some_iff.1 hl).1
            simp at this; omega
          subst hk'
          simp only [List.getElem?_concat_length, Option.some.injEq] at hl
          subst hl
          rw [h0] at h
          have hi := snapInv lines r0 h0
          change snapshotStep toFloat read r0 line = .ok r at h
          unfold snapshotStep at h
          cases hw : words line with
          | nil => rw [hw] at h; cases h
          | cons s rest =>
            refine ⟨s, rest, rfl, ?_⟩
            simp only [hw, hi.values] at h
            by_cases hm : s ∈ r0.array
            · left
              obtain ⟨l', h1, h2⟩ := (hi.mem s).1 hm
              obtain ⟨j, hj, rfl⟩ := List.mem_iff_getElem.1 h1
              exact ⟨j, lines[j], hj, by
                rw [List.getElem?_append_left hj]; exact List.getElem?_eq_getElem hj, h2⟩
            · right
              rw [if_neg hm] at h
              cases rest with
              | nil => cases h
              | cons v rest =>
                cases hc : toFloat v with
                | error e => simp only [hc] at h; cases h
                | ok c =>
                  cases ho : read s with
                  | error e => simp only [hc, ho] at h; cases h
                  | ok o => exact ⟨v, rest, c, o, rfl, hc, rfl⟩
    · intro h
      obtain ⟨r0, h0⟩ := ih.2 (by
        intro k l hl
        have hk : k < lines.length := (List.getElem?_eq_some_iff.1 hl).1
        obtain ⟨s, rest, h1, h2⟩ := h k l (by rw [List.getElem?_append_left hk]; exact hl)
        refine ⟨s, rest, h1, ?_⟩
        rcases h2 with ⟨j, l', g1, g2, g3⟩ | h2
        · exact Or.inl ⟨j, l', g1, by
            rw [List.getElem?_append_left (by omega)] at g2; exact g2, g3⟩
        · exact Or.inr h2)
      obtain ⟨s, rest, h1, h2⟩ := h lines.length line (by simp)
      have hi := snapInv lines r0 h0
      unfold extractSpecies at h0 ⊢
      rw [foldlM_snoc, h0]
      change ∃ r, snapshotStep toFloat read r0 line = .ok r
      unfold snapshotStep
      simp only [h1, hi.values]
      by_cases hm : s ∈ r0.array
      · exact ⟨r0, if_pos hm⟩
      · rw [if_neg hm]
        rcases h2 with ⟨j, l', g1, g2, g3⟩ | ⟨v, rest', c, o, rfl, g2, g3⟩
        · rw [List.getElem?_append_left g1] at g2
          exact absurd ((hi.mem s).2 ⟨l', List.mem_of_getElem? g2, g3⟩) hm
        · simp only [g2, g3]
          exact ⟨_, rfl⟩

/-- A snapshot with a repeated structure: the repeat neither counts nor overwrites. -/
def sampleSnapshot : List Str :=
  ["CCO 3".toList, "CC 5".toList, "CCO 7".toList, "C 2".toList]

/-- Whole numbers, for the example. -/
def digitsOnly (s : Str) : Except PyErr ℚ :=
  if s.all isDigit then .ok (digitsVal s) else .error .value

example : ∃ r, extractSpecies digitsOnly (fun s => Except.ok s) sampleSnapshot = .ok r ∧
    r.array = ["CCO".toList, "CC".toList, "C".toList] ∧ r.conc = [3, 5, 2] ∧
    r.index.get? "CC".toList = some 1 := by
  refine ⟨_, rfl, ?_, ?_, ?_⟩ <;> decide +kernel

/-! ## C46 -/

theorem relevant_iff {species : Dict ℕ Str} (hn : species.keys.Nodup) (n : Node) (s : Str)
    (hs : n.name = some s) : Relevant species n ↔ s ∉ oxidants ∧ s ∈ species.values := by
  have hv : s ∈ species.values ↔ ∃ i, species.get? i = some s := by
    simp only [Dict.values, List.mem_map]
    constructor
    · rintro ⟨⟨i, s'⟩, h1, rfl⟩
      exact ⟨i, Dict.get?_eq_some_of_mem hn h1⟩
    · rintro ⟨i, h⟩
      exact ⟨(i, s), Dict.mem_of_get?_eq_some h, rfl⟩
  rw [hv]
  constructor
  · rintro ⟨s', i, h1, h2, h3, h4, h5, h6⟩
    rw [hs] at h1; cases h1
    refine ⟨?_, i, h2⟩
    simp only [oxidants, List.mem_cons, List.not_mem_nil, or_false, not_or]
    exact ⟨h3, h4, h5, h6⟩
  · rintro ⟨h1, i, h2⟩
    simp only [oxidants, List.mem_cons, List.not_mem_nil, or_false, not_or] at h1
    exact ⟨s, i, hs, h2, h1.1, h1.2.1, h1.2.2.1, h1.2.2.2⟩

namespace Spec

/-- Record `k` is relevant and `s` is the structure of the last relevant record up to `k` that
has one. -/
def Inherited (species : Dict ℕ Str) (nodes : List Node) (k : ℕ) (s : Str) : Prop :=
  ∃ j n, j ≤ k ∧ nodes[j]? = some n ∧ Relevant species n ∧ n.smiles = some s ∧
    ∀ (i : ℕ) (m : Node), j < i → i ≤ k → nodes[i]? = some m → Relevant species m →
      m.smiles = none

/-- Record `k` is the last relevant one for `name`. -/
def LastRecord (species : Dict ℕ Str) (nodes : List Node) (k : ℕ) (name : Str) : Prop :=
  (∃ n, nodes[k]? = some n ∧ n.name = some name ∧ Relevant species n) ∧
    ∀ (i : ℕ) (m : Node), k < i → nodes[i]? = some m → m.name ≠ some name

end Spec

/-- What holds after the loop has seen `nodes`. -/
structure SmilesInv {O : Type} (species : Dict ℕ Str) (read : Str → Except PyErr O)
    (nodes : List Node) (st : SmilesState O) : Prop where
  current : ∀ s, st.current = some s ↔ Inherited species nodes (nodes.length - 1) s
  smiles : ∀ name s, st.smiles.get? name = some s ↔
    ∃ k, LastRecord species nodes k name ∧ Inherited species nodes k s
  pybel : ∀ name s, st.smiles.get? name = some s → ∃ o, st.pybel.get? s = some o ∧ read s = .ok o
  sound : ∀ s o, st.pybel.get? s = some o → read s = .ok o

theorem Inherited.snoc_lt {species : Dict ℕ Str} {nodes : List Node} {k : ℕ} {s : Str} (n : Node)
    (hk : k < nodes.length) :
    Inherited species (nodes ++ [n]) k s ↔ Inherited species nodes k s := by
  constructor
  · rintro ⟨j, m, h1, h2, h3, h4, h5⟩
    rw [List.getElem?_append_left (by omega)] at h2
    refine ⟨j, m, h1, h2, h3, h4, ?_⟩
    intro i m' hi hik hm'
    exact h5 i m' hi hik (by rw [List.getElem?_append_left (by omega)]; exact hm')
  · rintro ⟨j, m, h1, h2, h3, h4, h5⟩
    refine ⟨j, m, h1, by rw [List.getElem?_append_left (by omega)]; exact h2, h3, h4, ?_⟩
    intro i m' hi hik hm'
    rw [List.getElem?_append_left (by omega)] at hm'
    exact h5 i m' hi hik hm'

/-- The new record decides, unless it has no structure or is not relevant. -/
theorem Inherited.snoc_last {species : Dict ℕ Str} {nodes : List Node} {s : Str} (n : Node) :
    Inherited species (nodes ++ [n]) nodes.length s ↔
      (Relevant species n ∧ n.smiles = some s) ∨
      ((Relevant species n → n.smiles = none) ∧ Inherited species nodes (nodes.length - 1) s) := by
  constructor
  · rintro ⟨j, m, h1, h2, h3, h4, h5⟩
    rcases Nat.lt_or_ge j nodes.length with hj | hj
    · right
      rw [List.getElem?_append_left hj] at h2
      refine ⟨fun hr => h5 nodes.length n hj le_rfl (by simp) hr, j, m, by omega, h2, h3, h4, ?_⟩
      intro i m' hi hik hm'
      exact h5 i m' hi (by omega) (by rw [List.getElem?_append_left (by omega)]; exact hm')
    · left
      have : j = nodes.length := by omega
      subst this
      simp only [List.getElem?_concat_length, Option.some.injEq] at h2
      subst h2
      exact ⟨h3, h4⟩
  · rintro (⟨h1, h2⟩ | ⟨h1, j, m, g1, g2, g3, g4, g5⟩)
    · exact ⟨nodes.length, n, le_rfl, by simp, h1, h2, fun i m hi hik => by omega⟩
    · have hj : j < nodes.length := (List.getElem?_eq_some_iff.1 g2).1
      refine ⟨j, m, by omega, by rw [List.getElem?_append_left hj]; exact g2, g3, g4, ?_⟩
      intro i m' hi hik hm' hr
      rcases Nat.lt_or_ge i nodes.length with hin | hin
      · rw [List.getElem?_append_left hin] at hm'
        exact g5 i m' hi (by omega) hm' hr
      · have : i = nodes.length := by omega
        subst this
        simp only [List.getElem?_concat_length, Option.some.injEq] at hm'
        subst hm'
        exact h1 hr

theorem LastRecord.snoc {species : Dict ℕ Str} {nodes : List Node} {k : ℕ} {name : Str}
    (n : Node) : LastRecord species (nodes ++ [n]) k name ↔
      (k = nodes.length ∧ n.name = some name ∧ Relevant species n) ∨
      (n.name ≠ some name ∧ LastRecord species nodes k name) := by
  constructor
  · rintro ⟨⟨m, h1, h2, h3⟩, h4⟩
    rcases Nat.lt_or_ge k nodes.length with hk | hk
    · right
      rw [List.getElem?_append_left hk] at h1
      refine ⟨h4 nodes.length n hk (by simp), ⟨m, h1, h2, h3⟩, ?_⟩
      intro i m' hi hm'
      have := (List.getElem?_eq_some_iff.1 hm').1
      exact h4 i m' hi (by rw [List.getElem?_append_left this]; exact hm')
    · left
      have : k = nodes.length := by
        have := (List.getElem?_eq_some_iff.1 h1).1
        simp at this; omega
      subst this
      simp only [List.getElem?_concat_length, Option.some.injEq] at h1
      subst h1
      exact ⟨rfl, h2, h3⟩
  · rintro (⟨rfl, h1, h2⟩ | ⟨h1, ⟨m, g1, g2, g3⟩, g4⟩)
    · refine ⟨⟨n, by simp, h1, h2⟩, ?_⟩
      intro i m hi hm
      have := (List.getElem?_eq_some_iff.1 hm).1
      simp at this; omega
    · have hk := (List.getElem?_eq_some_iff.1 g1).1
      refine ⟨⟨m, by rw [List.getElem?_append_left hk]; exact g1, g2, g3⟩, ?_⟩
      intro i m' hi hm'
      rcases Nat.lt_or_ge i nodes.length with hin | hin
      · rw [List.getElem?_append_left hin] at hm'
        exact g4 i m' hi hm'
      · have : i = nodes.length := by
          have := (List.getElem?_eq_some_iff.1 hm').1
          simp at this; omega
        subst this
        simp only [List.getElem?_concat_length, Option.some.injEq] at hm'
        subst hm'
        exact h1

theorem LastRecord.lt {species : Dict ℕ Str} {nodes : List Node} {k : ℕ} {name : Str}
    (h : LastRecord species nodes k name) : k < nodes.length := by
  obtain ⟨⟨m, h1, -⟩, -⟩ := h
  exact (List.getElem?_eq_some_iff.1 h1).1

theorem SmilesInv.step {O : Type} {species : Dict ℕ Str} (hn : species.keys.Nodup)
    {read : Str → Except PyErr O} {nodes : List Node} {st st' : SmilesState O}
    (h : SmilesInv species read nodes st) (n : Node)
    (hs : smilesStep species read st n = .ok st') :
    SmilesInv species read (nodes ++ [n]) st' := by
  unfold smilesStep at hs
  have hlen : (nodes ++ [n]).length - 1 = nodes.length := by simp
  cases hname : n.name with
  | none => rw [hname] at hs; cases hs
  | some name =>
    have hrel := relevant_iff hn n name hname
    simp only [hname] at hs
    by_cases hr : Relevant species n
    · obtain ⟨hr1, hr2⟩ := hrel.1 hr
      rw [if_neg hr1, if_pos hr2] at hs
      cases hcur : n.smiles.or st.current with
      | none => simp only [hcur] at hs; cases hs
      | some s =>
        simp only [hcur] at hs
        cases ho : read s with
        | error e => simp only [ho] at hs; cases hs
        | ok o =>
          simp only [ho] at hs
          cases hs
          have hinh : ∀ s', Inherited species (nodes ++ [n]) nodes.length s' ↔ s = s' := by
            intro s'
            rw [Inherited.snoc_last]
            cases hsm : n.smiles with
            | some t =>
              rw [hsm] at hcur
              simp only [Option.some_or, Option.some.injEq] at hcur
              subst hcur
              simp [hr]
            | none =>
              rw [hsm] at hcur
              simp only [Option.none_or] at hcur
              rw [← h.current s', hcur]
              simp
          refine ⟨?_, ?_, ?_, ?_⟩
          · intro s'
            rw [hlen, hinh]
            simp
          · intro name' s'
            simp only [Dict.get?_set]
            by_cases he : name' = name
            · subst he
              rw [if_pos rfl, Option.some.injEq]
              constructor
              · intro hs'
                exact ⟨nodes.length, (LastRecord.snoc n).2 (Or.inl ⟨rfl, hname, hr⟩),
                  (hinh s').2 hs'⟩
              · rintro ⟨k, h1, h2⟩
                rcases (LastRecord.snoc n).1 h1 with ⟨rfl, -, -⟩ | ⟨h3, -⟩
                · exact (hinh s').1 h2
                · exact absurd hname h3
            · rw [if_neg he, h.smiles]
              have hne : n.name ≠ some name' := by
                rw [hname]; intro hc; cases hc; exact he rfl
              constructor
              · rintro ⟨k, h1, h2⟩
                exact ⟨k, (LastRecord.snoc n).2 (Or.inr ⟨hne, h1⟩),
                  (Inherited.snoc_lt n (LastRecord.lt h1)).2 h2⟩
              · rintro ⟨k, h1, h2⟩
                rcases (LastRecord.snoc n).1 h1 with ⟨-, h3, -⟩ | ⟨-, h3⟩
                · exact absurd h3 hne
                · exact ⟨k, h3, (Inherited.snoc_lt n (LastRecord.lt h3)).1 h2⟩
          · intro name' s' hg
            simp only [Dict.get?_set] at hg ⊢
            by_cases hss : s' = s
            · subst hss
              exact ⟨o, if_pos rfl, ho⟩
            · rw [if_neg hss]
              by_cases he : name' = name
              · rw [if_pos he] at hg
                cases hg
                exact absurd rfl hss
              · rw [if_neg he] at hg
                exact h.pybel name' s' hg
          · intro s' o' hg
            simp only [Dict.get?_set] at hg
            by_cases hss : s' = s
            · rw [if_pos hss] at hg
              cases hg
              rw [hss]; exact ho
            · rw [if_neg hss] at hg
              exact h.sound s' o' hg
    · have hst : st' = st := by
        by_cases h1 : name ∈ oxidants
        · rw [if_pos h1] at hs; cases hs; rfl
        · rw [if_neg h1] at hs
          by_cases h2 : name ∈ species.values
          · exact absurd (hrel.2 ⟨h1, h2⟩) hr
          · rw [if_neg h2] at hs; cases hs; rfl
      subst hst
      refine ⟨?_, ?_, h.pybel, h.sound⟩
      · intro s'
        rw [hlen, Inherited.snoc_last, h.current]
        simp [hr]
      · intro name' s'
        rw [h.smiles]
        constructor
        · rintro ⟨k, h1, h2⟩
          refine ⟨k, (LastRecord.snoc n).2 (Or.inr ⟨?_, h1⟩), (Inherited.snoc_lt n (LastRecord.lt h1)).2 h2⟩
          intro hc
          apply hr
          obtain ⟨⟨m, -, h4, h5⟩, -⟩ := h1
          exact (relevant_iff hn n name' hc).2 ((relevant_iff hn m name' h4).1 h5)
        · rintro ⟨k, h1, h2⟩
          rcases (LastRecord.snoc n).1 h1 with ⟨-, -, h3⟩ | ⟨-, h3⟩
          · exact absurd h3 hr
          · exact ⟨k, h3, (Inherited.snoc_lt n (LastRecord.lt h3)).1 h2⟩

theorem smilesInv {O : Type} {species : Dict ℕ Str} (hn : species.keys.Nodup)
    {read : Str → Except PyErr O} (nodes : List Node) : ∀ st,
    nodes.foldlM (smilesStep species read) {} = .ok st → SmilesInv species read nodes st := by
  induction nodes using List.reverseRecOn with
  | nil =>
    intro st h
    cases h
    refine ⟨?_, ?_, by simp, by simp⟩
    · intro s; constructor
      · intro h; cases h
      · rintro ⟨j, n, -, h, -⟩; simp at h
    · intro name s; constructor
      · intro h; cases h
      · rintro ⟨k, ⟨⟨n, h, -⟩, -⟩, -⟩; simp at h
  | append_singleton nodes n ih =>
    intro st h
    rw [foldlM_snoc] at h
    cases h0 : nodes.foldlM (smilesStep species read) ({} : SmilesState O) with
    | error e => rw [h0] at h; cases h
    | ok r0 =>
      rw [h0] at h
      exact (ih r0 h0).step hn n h

/-- C46, exactly: what is stored for a species is the structure of its last record, or, if that
record has none, the structure of the nearest relevant record before it, whatever species that
one describes. -/
theorem C46_exact {O : Type} {species : Dict ℕ Str} (hn : species.keys.Nodup)
    {read : Str → Except PyErr O} {nodes : List Node} {smiles : Dict Str Str} {pybel : Dict Str O}
    (h : extractSmiles species read nodes = .ok (smiles, pybel)) (name s : Str) :
    smiles.get? name = some s ↔
      ∃ k, LastRecord species nodes k name ∧ Inherited species nodes k s := by
  unfold extractSmiles at h
  cases h0 : nodes.foldlM (smilesStep species read) ({} : SmilesState O) with
  | error e => rw [h0] at h; cases h
  | ok st =>
    rw [h0] at h
    cases h
    exact (smilesInv hn nodes st h0).smiles name s

/-- C46, as far as it holds: if every relevant record has a structure then a species gets that
of its own last record.  Missing: files with a relevant record that has no structure. -/
theorem C46_own_partial {O : Type} {species : Dict ℕ Str} (hn : species.keys.Nodup)
    {read : Str → Except PyErr O} {nodes : List Node} {smiles : Dict Str Str} {pybel : Dict Str O}
    (h : extractSmiles species read nodes = .ok (smiles, pybel))
    (hall : ∀ n ∈ nodes, Relevant species n → n.smiles.isSome) (name s : Str) :
    smiles.get? name = some s ↔
      ∃ (k : ℕ) (n : Node), LastRecord species nodes k name ∧ nodes[k]? = some n ∧
        n.smiles = some s := by
  rw [C46_exact hn h]
  constructor
  · rintro ⟨k, h1, j, m, g1, g2, g3, g4, g5⟩
    obtain ⟨⟨n, h2, h3, h4⟩, -⟩ := id h1
    refine ⟨k, n, h1, h2, ?_⟩
    rcases Nat.lt_or_ge j k with hj | hj
    · have := g5 k n hj le_rfl h2 h4
      have h5 := hall n (List.mem_of_getElem? h2) h4
      rw [this] at h5; cases h5
    · have : j = k := by omega
      subst this
      rw [h2] at g2; cases g2
      exact g4
  · rintro ⟨k, n, h1, h2, h3⟩
    refine ⟨k, h1, k, n, le_rfl, h2, ?_, h3, fun i m hi hik => by omega⟩
    obtain ⟨⟨n', h4, -, h5⟩, -⟩ := h1
    rw [h2] at h4; cases h4
    exact h5

/-- C46: every structure stored has its object, made from that structure. -/
theorem C46_objects {O : Type} {species : Dict ℕ Str} (hn : species.keys.Nodup)
    {read : Str → Except PyErr O} {nodes : List Node} {smiles : Dict Str Str} {pybel : Dict Str O}
    (h : extractSmiles species read nodes = .ok (smiles, pybel)) (name s : Str)
    (hs : smiles.get? name = some s) : ∃ o, pybel.get? s = some o ∧ read s = .ok o := by
  unfold extractSmiles at h
  cases h0 : nodes.foldlM (smilesStep species read) ({} : SmilesState O) with
  | error e => rw [h0] at h; cases h
  | ok st =>
    rw [h0] at h
    cases h
    exact (smilesInv hn nodes st h0).pybel name s hs

/-- C46: the oxidants and names that are not in the mechanism get no structure. -/
theorem C46_irrelevant {O : Type} {species : Dict ℕ Str} (hn : species.keys.Nodup)
    {read : Str → Except PyErr O} {nodes : List Node} {smiles : Dict Str Str} {pybel : Dict Str O}
    (h : extractSmiles species read nodes = .ok (smiles, pybel)) (name : Str)
    (hname : (∀ i, species.get? i ≠ some name) ∨ name = "OH".toList ∨ name = "HO2".toList ∨
      name = "O3".toList) : smiles.get? name = none := by
  cases hg : smiles.get? name with
  | none => rfl
  | some s =>
    obtain ⟨k, ⟨⟨n, -, h2, s', i, h3, h4, h5, h6, h7, -⟩, -⟩, -⟩ := (C46_exact hn h name s).1 hg
    rw [h2] at h3
    cases h3
    rcases hname with h' | h' | h' | h'
    · exact absurd h4 (h' i)
    · exact absurd h' h5
    · exact absurd h' h6
    · exact absurd h' h7

/-- Two species, the second record without structure. -/
def gapSpecies : Dict ℕ Str := [(0, "A".toList), (1, "B".toList)]

def gapNodes : List Node :=
  [⟨some "A".toList, some "CC".toList⟩, ⟨some "B".toList, none⟩]

/-- C46 does not hold for every file: a species without structure gets that of the record
before. -/
theorem C46_false : ¬ C46_Statement := by
  intro h
  obtain ⟨n, h1, h2, h3⟩ := h Str gapSpecies (fun s => .ok s) gapNodes
    [("A".toList, "CC".toList), ("B".toList, "CC".toList)] [("CC".toList, "CC".toList)]
    (by decide) (by decide +kernel) "B".toList "CC".toList (by decide)
  simp only [gapNodes, List.mem_cons, List.not_mem_nil, or_false] at h1
  rcases h1 with rfl | rfl
  · revert h2; decide
  · cases h3

/-- C46: if the first relevant record has no structure the whole reading fails. -/
theorem C46_first_missing {O : Type} (species : Dict ℕ Str) (hn : species.keys.Nodup)
    (read : Str → Except PyErr O) (before : List Node) (n : Node) (after : List Node)
    (hb : ∀ m ∈ before, (∃ s, m.name = some s) ∧ ¬ Relevant species m)
    (hr : Relevant species n) (hs : n.smiles = none) :
    extractSmiles species read (before ++ n :: after) = .error .name := by
  have hskip : before.foldlM (smilesStep species read) ({} : SmilesState O) = .ok {} := by
    induction before with
    | nil => rfl
    | cons m l ih =>
      obtain ⟨⟨s, h1⟩, h2⟩ := hb m (by simp)
      rw [List.foldlM_cons]
      have : smilesStep species read {} m = .ok ({} : SmilesState O) := by
        unfold smilesStep
        simp only [h1]
        have := relevant_iff hn m s h1
        by_cases g1 : s ∈ oxidants
        · rw [if_pos g1]
        · rw [if_neg g1, if_neg (fun g2 => h2 (this.2 ⟨g1, g2⟩))]
      rw [this]
      exact ih (fun m' hm' => hb m' (by simp [hm']))
  unfold extractSmiles
  rw [List.foldlM_append, hskip]
  obtain ⟨s, i, h1, -⟩ := id hr
  obtain ⟨g1, g2⟩ := (relevant_iff hn n s h1).1 hr
  have : smilesStep species read {} n = (.error .name : Except PyErr (SmilesState O)) := by
    unfold smilesStep
    simp only [h1]
    rw [if_neg g1, if_pos g2, hs]
    rfl
  simp only [bind, Except.bind, List.foldlM_cons, this]

/-- A file with structures for both species and a record for another one. -/
def fullNodes : List Node :=
  [⟨some "A".toList, some "CC".toList⟩, ⟨some "X".toList, none⟩,
   ⟨some "B".toList, some "C".toList⟩]

example : extractSmiles gapSpecies (fun s => Except.ok s) fullNodes
      = .ok ([("A".toList, "CC".toList), ("B".toList, "C".toList)],
        [("CC".toList, "CC".toList), ("C".toList, "C".toList)]) ∧ gapSpecies.keys.Nodup ∧
    ∀ n ∈ fullNodes, Relevant gapSpecies n → n.smiles.isSome := by
  refine ⟨by decide +kernel, by decide, ?_⟩
  intro n hn hr
  simp only [fullNodes, List.mem_cons, List.not_mem_nil, or_false] at hn
  rcases hn with rfl | rfl | rfl
  · rfl
  · have := ((relevant_iff (by decide) _ "X".toList rfl).1 hr).2
    revert this; decide
  · rfl

end PyBox
