import Verif.Props.OpenMP

/-!
# C23: the blocks of the parallel regions share the work evenly
-/

namespace PyBox

open Spec

variable {κ : Type}

theorem mem_breakList {n cores k : Nat} (h1 : 0 < k) (h2 : k < cores - 1) : n * k / (cores - 1) ∈ breakList n cores := by
  unfold breakList
  obtain ⟨c, rfl⟩ : ∃ c, cores = c + 2 := ⟨cores - 2, by omega⟩
  rw [List.range_succ, List.map_append, List.drop_append_of_le_length (by simp), List.map_singleton,
    List.dropLast_concat, List.mem_drop_iff_getElem]
  exact ⟨k - 1, by simp; omega, by
    simp only [List.getElem_map, List.getElem_range]
    rw [show 1 + (k - 1) = k by omega]⟩

/-- There is a break in every stretch of more than an even share. -/
theorem break_near {n cores s : Nat} (hc : 2 ≤ cores) (h : s + (n / (cores - 1) + 1) < n) :
    ∃ b ∈ breakList n cores, s < b ∧ b ≤ s + (n / (cores - 1) + 1) := by
  set d := cores - 1 with hd
  have hd0 : 0 < d := by omega
  have hex : ∃ k, s < n * k / d := ⟨d, by rw [Nat.mul_div_cancel _ hd0]; exact (Nat.lt_of_le_of_lt (Nat.le_add_right ..) h)⟩
  classical
  set k := Nat.find hex with hk
  have h1 : s < n * k / d := Nat.find_spec hex
  have hk0 : 0 < k := by
    rcases Nat.eq_zero_or_pos k with h0 | h0
    · rw [h0] at h1; simp at h1
    · exact h0
  have h2 : n * (k - 1) / d ≤ s := by
    have := Nat.find_min hex (m := k - 1) (by omega)
    omega
  have h3 : n * k / d ≤ n * (k - 1) / d + (n / d + 1) := by
    have e : n * k = n * (k - 1) + n := by
      obtain ⟨j, hj⟩ : ∃ j, k = j + 1 := ⟨k - 1, by omega⟩
      rw [hj, Nat.add_sub_cancel, Nat.mul_succ]
    rw [e]
    have a1 := Nat.div_add_mod (n * (k - 1)) d
    have a2 := Nat.div_add_mod n d
    have a3 := Nat.mod_lt (n * (k - 1)) hd0
    have a4 := Nat.mod_lt n hd0
    rw [← Nat.lt_succ_iff, Nat.div_lt_iff_lt_mul hd0]
    nlinarith
  refine ⟨n * k / d, mem_breakList hk0 ?_, h1, by omega⟩
  by_contra hcon
  have : n * d / d ≤ n * k / d := Nat.div_le_div_right (Nat.mul_le_mul_left _ (by omega))
  rw [Nat.mul_div_cancel _ hd0] at this
  omega

/-- The blocks after the first break, for groups of one line each: `cur` was begun at `s`. -/
theorem blocks_even {bs : List Nat} {n L : Nat} (hL : ∀ s, s + L < n → ∃ b ∈ bs, s < b ∧ b ≤ s + L) :
    ∀ (lines : List (Line κ)) (i s : Nat) (cur : List (Line κ)), i ≠ 0 → s + cur.length = i → s < i →
    i + lines.length = n → (∀ b ∈ bs, s < b → i ≤ b) →
    ∃ blocks : List (List (Line κ)),
      cur ++ (((lines.map fun l => [l]).zipIdx i).map (fun gi => ompBefore bs gi.2 ++ gi.1)).flatten ++
          [.omp .endSingle] = (blocks.flatMap (fun b => .omp .single :: (b ++ [.omp .endSingle]))).tail ∧
      blocks ≠ [] ∧ blocks.flatten = cur ++ lines ∧ ∀ b ∈ blocks, b.length ≤ L := by
  have cut : ∀ {i s : Nat}, i ≤ n → (∀ b ∈ bs, s < b → i ≤ b) → i - s ≤ L := by
    intro i s hi hb
    by_contra hcon
    obtain ⟨b, h1, h2, h3⟩ := hL s (by omega)
    have := hb b h1 h2
    omega
  intro lines
  induction lines with
  | nil =>
    intro i s cur h0 hs _ hn hb
    refine ⟨[cur], by simp, by simp, by simp, ?_⟩
    intro b hbm
    rw [List.mem_singleton] at hbm
    subst hbm
    have := cut (i := i) (s := s) (by simp at hn; omega) hb
    omega
  | cons l lines ih =>
    intro i s cur h0 hs hsi hn hb
    rw [List.length_cons] at hn
    simp only [List.map_cons, List.zipIdx_cons, List.flatten_cons]
    unfold ompBefore
    rw [if_neg h0, List.nil_append]
    by_cases hi : i ∈ bs
    · obtain ⟨blocks, h1, h2, h3, h4⟩ := ih (i + 1) i [l] (by omega) rfl (by omega) (by omega)
        (fun b _ hlt => hlt)
      refine ⟨cur :: blocks, ?_, by simp, by simp [h3], ?_⟩
      · rw [if_pos hi]
        obtain ⟨b0, blocks, rfl⟩ := List.exists_cons_of_ne_nil h2
        simp only [List.flatMap_cons, List.cons_append, List.tail_cons] at h1 ⊢
        simp only [ompBefore] at h1
        simp only [List.append_assoc, List.cons_append, List.nil_append] at h1 ⊢
        rw [h1]
      · intro b hbm
        rcases List.mem_cons.1 hbm with rfl | hbm
        · have := cut (i := i) (s := s) (by omega) hb
          omega
        · exact h4 b hbm
    · obtain ⟨blocks, h1, h2, h3, h4⟩ := ih (i + 1) s (cur ++ [l]) (by omega) (by simp; omega) (by omega) (by omega)
        (fun b hbm hlt => by
          have := hb b hbm hlt
          rcases Nat.lt_or_eq_of_le this with h | h
          · exact h
          · exact absurd (h ▸ hbm) hi)
      refine ⟨blocks, ?_, h2, by rw [h3]; simp, h4⟩
      rw [if_neg hi, List.nil_append, ← h1]
      simp only [ompBefore, List.append_assoc]

/-- One numbered line per item, cut at the breaks. -/
theorem withOmp_even {n cores : Nat} (hc : 2 ≤ cores) {lines : List (Line κ)} (hlen : lines.length = n) (hne : lines ≠ [])
    (hcode : ∀ l ∈ lines, IsCode l) :
    ∃ blocks, Region (withOmp (some (breakList n cores)) (lines.map fun l => [l])) blocks ∧
      blocks.flatten = lines ∧ ∀ b ∈ blocks, b.length ≤ n / (cores - 1) + 1 := by
  obtain ⟨l, lines, rfl⟩ := List.exists_cons_of_ne_nil hne
  set bs := breakList n cores with hbs
  obtain ⟨blocks, h1, h2, h3, h4⟩ := blocks_even (bs := bs) (fun s hs => break_near hc hs) lines 1 0 [l] one_ne_zero rfl
    one_pos (by simp at hlen; omega) (fun b _ hb => hb)
  have code : ∀ b ∈ blocks, ∀ x ∈ b, IsCode x := by
    intro b hb x hx
    apply hcode x
    have : x ∈ blocks.flatten := List.mem_flatten.2 ⟨b, hb, hx⟩
    rw [h3] at this
    exact this
  obtain ⟨b0, blocks, rfl⟩ := List.exists_cons_of_ne_nil h2
  simp only [List.flatMap_cons, List.cons_append, List.tail_cons] at h1
  by_cases h0 : 0 ∈ bs
  · refine ⟨[] :: b0 :: blocks, ⟨?_, ?_⟩, ?_, ?_⟩
    · unfold withOmp
      dsimp only
      simp only [List.map_cons, List.zipIdx_cons, List.flatten_cons, Nat.zero_add]
      unfold ompBefore at h1 ⊢
      rw [if_pos rfl, if_pos h0]
      simp only [List.flatMap_cons, List.cons_append, List.append_assoc, List.nil_append] at h1 ⊢
      have := congrArg (· ++ [Line.omp (κ := κ) .endParallel]) h1
      simp only [List.append_assoc, List.cons_append, List.nil_append] at this
      rw [this]
    · intro b hb
      rcases List.mem_cons.1 hb with rfl | hb
      · simp
      · exact code b hb
    · rw [List.flatten_cons, h3]; rfl
    · intro b hb
      rcases List.mem_cons.1 hb with rfl | hb
      · simp
      · exact h4 b hb
  · refine ⟨b0 :: blocks, ⟨?_, code⟩, ?_, h4⟩
    · unfold withOmp
      dsimp only
      simp only [List.map_cons, List.zipIdx_cons, List.flatten_cons, Nat.zero_add]
      unfold ompBefore at h1 ⊢
      rw [if_pos rfl, if_neg h0]
      simp only [List.flatMap_cons, List.cons_append, List.append_assoc, List.nil_append] at h1 ⊢
      have := congrArg (· ++ [Line.omp (κ := κ) .endParallel]) h1
      simp only [List.append_assoc, List.cons_append, List.nil_append] at this
      rw [this]
    · rw [h3]; rfl

/-- What an even split requires of a generator that writes one line for each of `n` items. -/
def Spec.SplitsEvenly (n : Nat) (gen : Option Nat → Except PyErr (List (Line κ))) : Prop :=
  ∀ cores, 2 ≤ cores → ∃ serial par blocks, gen none = .ok serial ∧ gen (some cores) = .ok par ∧
    Region par blocks ∧ blocks.flatten = serial ∧ ∀ b ∈ blocks, b.length ≤ n / (cores - 1) + 1

/-- C23: of the `n` lines of the reactant and tendency routines no block gets more than one line above an even share
of the `cores - 1` blocks. -/
theorem C23_balanced {text : Str} {m : Mechanism} (h : extractMechanism text = .ok m) (hne : m.equations.toNat ≠ 0) :
    SplitsEvenly m.equations.toNat (writeReactantsF m.tables.gen m.equations.toNat) ∧
    (m.tables.index ≠ [] → SplitsEvenly m.tables.index.length
      (fun c => .ok (writeLossGainF m.tables.gen m.tables.index.length c))) := by
  obtain ⟨qs, -, h2, h3⟩ := extract_reads h
  have h3' := h3
  rw [h2, ← h3]
  constructor
  · intro cores hc
    rw [writeReactantsF_build, writeReactantsF_build]
    obtain ⟨blocks, b1, b2, b3⟩ := withOmp_even (n := qs.length) hc
      (lines := (List.range qs.length).map fun e => shiftLine (toLine e (prodToks (facsOf qs e)))) (by simp)
      (by
        intro hh
        have := congrArg List.length hh
        simp at this
        exact hne (by rw [← h3', this]; rfl))
      (by
        intro l hl
        obtain ⟨e, -, rfl⟩ := List.mem_map.1 hl
        exact shiftLine_code (toLine_code _ _))
    rw [List.map_map] at b1
    refine ⟨_, _, blocks, rfl, rfl, b1, ?_, b3⟩
    rw [b2]
    simp only [Option.map_none, withOmp, ← List.flatMap_def]
    exact List.map_eq_flatMap
  · intro hi cores hc
    obtain ⟨blocks, b1, b2, b3⟩ := withOmp_even (n := (build qs).index.length) hc
      (lines := (build qs).gen.index.map fun p => tendencyLineF (build qs).gen p) (by simp [Tables.gen])
      (by simpa [Tables.gen] using hi)
      (by
        intro l hl
        obtain ⟨e, -, rfl⟩ := List.mem_map.1 hl
        exact tendencyLineF_code _ _)
    rw [List.map_map] at b1
    refine ⟨_, _, blocks, rfl, rfl, b1, ?_, b3⟩
    rw [b2]
    simp only [writeLossGainF, Option.map_none, withOmp, ← List.flatMap_def]
    exact List.map_eq_flatMap

example : extractMechanism sampleText = .ok ⟨build sampleReactions, 3⟩ ∧ (3 : Int).toNat ≠ 0 ∧
    (build sampleReactions).index ≠ [] := ⟨sample_parses, by decide, by decide +kernel⟩

end PyBox
