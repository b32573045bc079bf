import Verif.Aerosol.RoundedCall

/-!
# What rounding cannot break

The lines for the gas copy the computed tendencies of the bin and are summed at the end. This does not depend on the
arguments, nor on what the other statements compute.
-/

namespace PyBox
namespace Ft

open Aerosol Rl Spec

section

variable {L : Aerosol.Layout} {P : PartInput} {total : ℕ} {σ : Store}

/-- Statements keep the types and the other variables. -/
theorem run_frame (p : List Stmt) {rest : List Stmt} {σ τ : Store} (T : Typed L total σ)
    (hr : RoundedRun (p ++ rest) σ τ) :
    ∃ σ', RoundedRun rest σ' τ ∧ Typed L total σ' ∧ ∀ x ∉ p.map (fun s => s.target.name), σ' x = σ x := by
  induction p generalizing σ with
  | nil => exact ⟨σ, hr, T, fun _ _ => rfl⟩
  | cons s p ih =>
    cases hr with
    | cons hw hv hr =>
      obtain ⟨σ', h1, h2, h3⟩ := ih (typed_update T (assign_shape hv)) hr
      refine ⟨σ', h1, h2, fun x hx => ?_⟩
      rw [List.map_cons, List.mem_cons, not_or] at hx
      rw [h3 x hx.2, Function.update_of_ne hx.1]

/-- After `n` passes. -/
structure RawAt (L : Aerosol.Layout) (total n : ℕ) (σ : Store) : Prop where
  T : Typed L total σ
  species : σ 60 = .int L.numSpecies
  ncond : σ 61 = .int L.numCond
  dy : ∃ dm : ℕ → ℕ → ℝ, (∃ f, σ 39 = .mat L.numSpecies L.numBins f ∧
      ∀ a i, f i a = if 1 ≤ a ∧ a ≤ n then gasColumn L.incl (dm a) i else 0) ∧
    σ 29 = .arr (vec total (runEvents L dm (serialEvents n) ⟨0, 0, fun _ => 0⟩).dyDt)

theorem raw_pass (F : Fits L total) {n : ℕ} (hn : n < L.numBins) (h : RawAt L total n σ) {σ' : Store}
    (hp : (partRoutine L total).RoundedPass (n + 1) σ σ') : RawAt L total (n + 1) σ' := by
  obtain ⟨τ, τ', p1, p2, p3, rfl⟩ := hp
  change ∀ x ∉ partPriv, τ x = σ x at p1
  change ∀ x ∈ partPriv, ∀ d, (partDecls (holes L total))[x]? = some d → d.accepts (τ x) at p2
  change RoundedRun (partBody L) (Function.update τ 56 (.int (n + 1 : ℕ))) τ' at p3
  set τ₀ := Function.update τ 56 (.int (n + 1 : ℕ)) with hτ₀
  have e0 : ∀ x ∉ partPriv, τ₀ x = σ x := fun x hx => by
    rw [hτ₀, Function.update_of_ne (fun h : x = 56 => hx (by rw [h]; decide))]
    exact p1 x hx
  have hTτ : Typed L total τ := by
    intro x d hd
    by_cases hx : x ∈ partPriv
    · exact accepts_shape (p2 x hx d hd)
    · rw [p1 x hx]; exact h.T x d hd
  obtain ⟨z, hz⟩ := shape_int (show (τ 56).shape = .int from typed_get hTτ 56 rfl)
  have T0 : Typed L total τ₀ := typed_update hTτ (by rw [hz]; rfl)
  have p3 : RoundedRun (partBody1 ++ (L.incl.zipIdx.map gasStmt ++ partBody2)) τ₀ τ' := by
    rw [← List.append_assoc]; exact p3
  obtain ⟨τ₁, q1, T1, f1⟩ := run_frame partBody1 T0 p3
  have f1' : ∀ x ∈ [29, 39, 56, 60, 61], τ₁ x = τ₀ x := fun x hx =>
    f1 x ((by decide +kernel : ∀ x ∈ [29, 39, 56, 60, 61], x ∉ partBody1.map (fun s => s.target.name)) x hx)
  have k56 : τ₁ 56 = .int (n + 1 : ℕ) := (f1' 56 (by decide)).trans (Function.update_self ..)
  obtain ⟨dmn, k36⟩ : ∃ f, τ₁ 36 = .arr (vec L.numCond f) := shape_arr (typed_get T1 36 rfl)
  obtain ⟨dm, ⟨f, hf, hg⟩, hD⟩ := h.dy
  have k39 : τ₁ 39 = .mat L.numSpecies L.numBins f := (f1' 39 (by decide)).trans ((e0 39 (by decide)).trans hf)
  obtain ⟨τ₂, q2, g1, g2⟩ := pass_gas (by omega) (by omega) L.incl.zipIdx (fun p hp => by
    obtain ⟨i, hi⟩ := List.mem_iff_getElem?.1 hp
    rw [List.getElem?_zipIdx] at hi
    obtain ⟨a, ha, rfl⟩ := Option.map_eq_some_iff.1 hi
    obtain ⟨hlt, rfl⟩ := List.getElem?_eq_some_iff.1 ha
    exact ⟨F.valid _ (List.getElem_mem hlt), by have := F.len; dsimp only; omega⟩) k39 k36 k56 q1
  have T2 : Typed L total τ₂ := by
    have : τ₂ = Function.update τ₁ 39 (τ₂ 39) := by
      funext x
      by_cases hx : x = 39
      · subst hx; rw [Function.update_self]
      · rw [Function.update_of_ne hx]; exact g1 x hx
    rw [this]
    exact typed_update T1 (by rw [g2, k39]; rfl)
  have k60 : τ₂ 60 = .int L.numSpecies :=
    (g1 60 (by decide)).trans ((f1' 60 (by decide)).trans ((e0 60 (by decide)).trans h.species))
  have k61 : τ₂ 61 = .int L.numCond :=
    (g1 61 (by decide)).trans ((f1' 61 (by decide)).trans ((e0 61 (by decide)).trans h.ncond))
  have k29 : τ₂ 29 = _ := (g1 29 (by decide)).trans ((f1' 29 (by decide)).trans ((e0 29 (by decide)).trans hD))
  obtain ⟨s1, s2, T3⟩ := slice_run T2 F.size F.cond (by omega) (by omega) k60 k61 ((g1 56 (by decide)).trans k56)
    ((g1 36 (by decide)).trans k36) k29 q2
  have sh : ∀ x ∉ partPriv, (if x ∈ (partRoutine L total).loop.priv then σ x else τ' x) = τ' x :=
    fun x hx => if_neg hx
  refine ⟨?_, (sh 60 (by decide)).trans ((s2 60 (by decide)).trans k60),
    (sh 61 (by decide)).trans ((s2 61 (by decide)).trans k61), ?_⟩
  · intro x d hd
    dsimp only
    split
    · exact h.T x d hd
    · exact T3 x d hd
  · have hdn : ∀ a, a ≤ n → Function.update dm (n + 1) dmn a = dm a := fun a ha => Function.update_of_ne (by omega) ..
    refine ⟨Function.update dm (n + 1) dmn, ?_, ?_⟩
    · refine ⟨_, ((sh 39 (by decide)).trans (s2 39 (by decide))).trans g2, fun a i => ?_⟩
      by_cases ha : a = n + 1
      · subst ha
        rw [if_pos rfl, if_pos (by omega), Function.update_self]
        unfold gasColumn
        refine congrFun (congrArg (fun M => List.foldl _ M _) ?_) i
        funext i
        rw [hg, if_neg (by omega)]
      · rw [if_neg ha, hg]
        by_cases hl : 1 ≤ a ∧ a ≤ n
        · rw [if_pos hl, if_pos (by omega), hdn a hl.2]
        · rw [if_neg hl, if_neg (by omega)]
    · rw [sh 29 (by decide), s1, serialEvents_succ, runEvents_append, run_binEvents, Function.update_self,
        runEvents_congr (dm := Function.update dm (n + 1) dmn) (dm' := dm) (serialEvents n) _
          (fun e he => hdn _ (serial_bins he))]

theorem raw_passes (F : Fits L total) (m : ℕ) {n : ℕ} (hn : n + m = L.numBins) {σ σ' : Store} (h : RawAt L total n σ)
    (hp : (partRoutine L total).RoundedPasses (List.range' (n + 1) m) σ σ') : RawAt L total L.numBins σ' := by
  induction m generalizing n σ with
  | zero =>
    cases hp
    obtain rfl : n = L.numBins := by omega
    exact h
  | succ m ih =>
    rw [List.range'_succ] at hp
    cases hp with
    | cons h1 h2 => exact ih (by omega) (raw_pass F (by omega) h h1) h2

theorem raw_end (F : Fits L total) (hs : 1 ≤ L.numSpecies) (h : RawAt L total L.numBins σ) {σ' : Store}
    (hr : RoundedRun partPost σ σ') :
    ∃ (soa : ℝ) (aw size D : ℕ → ℝ),
      results (partRoutine L total) σ' = [.real soa, .arr (vec L.numBins aw), .arr (vec L.numBins size), .arr (vec total D)] ∧
      (∀ i, 1 ≤ i → i ≤ L.numSpecies → i - 1 ∉ L.incl → D i = 0) ∧
      (L.incl.Nodup → ∀ (j : ℕ) (hj : j < L.incl.length), Near ((L.numBins + 1) * du)
        (∑ b ∈ Finset.range L.numBins, |D (L.numSpecies + b * L.numCond + j + 1)|)
        (-∑ b ∈ Finset.range L.numBins, D (L.numSpecies + b * L.numCond + j + 1)) (D (L.incl[j] + 1))) := by
  obtain ⟨dm, ⟨f, h39, hf⟩, h29⟩ := h.dy
  have hsp := h.species
  have hsT : L.numSpecies ≤ total := by rw [F.size]; omega
  unfold partPost at hr
  obtain - | ⟨w1, v1, hr⟩ := hr
  rename_i u1 z1
  obtain - | ⟨w2, v2, hr⟩ := hr
  rename_i u2 z2
  cases hr
  dsimp only [Target.name] at *
  set D0 := (runEvents L dm (serialEvents L.numBins) ⟨0, 0, fun _ => 0⟩).dyDt with hD0
  obtain ⟨a1, a2, k1, k2, o⟩ := w1
  have hsec := val_sec (strict := True) h29 (show (Ex.int 1).val True σ = some (.int (1 : ℕ)) from rfl)
    (val_var hsp) (le_refl 1) hsT (by omega)
  rw [Nat.add_sub_cancel] at hsec
  cases hsec.symm.trans k1
  unfold Ex.Rounded at k2
  rw [h39] at k2
  obtain ⟨r, rfl, k2⟩ := k2
  have k2' : List.Forall₂ (fun i s => SumOf (vec L.numBins (fun j => f i j)) s) (vec L.numSpecies (fun i => i)) r := by
    rw [vec, List.forall₂_map_left_iff]
    exact k2
  obtain ⟨s, rfl, hsum⟩ := forall₂_vec k2'
  obtain ⟨z, hz, hzr⟩ := op_int (s := some L.numSpecies) (t := some L.numSpecies) rfl rfl compat_self o
  cases hz
  have r4 := assign_sec (k := z) h29 (show (Ex.int 1).val True σ = some (.int (1 : ℕ)) from rfl)
    (val_var hsp) (le_refl 1) hsT hs rfl
  rw [Nat.add_sub_cancel] at r4
  cases r4.symm.trans v1
  set σ1 := Function.update σ 29 (V.arr (vec total (fun i => if 1 ≤ i ∧ i ≤ L.numSpecies then z (i - 1 + 1) else D0 i)))
    with hσ1
  have h27 := shape_arr (n := L.numBins) (typed_get h.T 27 rfl)
  have h28 := shape_arr (n := L.numBins) (typed_get h.T 28 rfl)
  obtain ⟨f27, h27⟩ := h27
  obtain ⟨f28, h28⟩ := h28
  have ht26 : (σ1 26).shape = .real := by
    rw [hσ1, Function.update_of_ne (by decide)]
    exact typed_get h.T 26 rfl
  have hz2 := (assign_shape v2).trans ht26
  obtain ⟨soa, rfl⟩ : ∃ y, z2 = .real y := by
    cases z2 <;> simp [V.shape] at hz2
    exact ⟨_, rfl⟩
  refine ⟨soa, f27, f28, fun i => if 1 ≤ i ∧ i ≤ L.numSpecies then z (i - 1 + 1) else D0 i, ?_, ?_, ?_⟩
  · rw [results_part, Function.update_self, Function.update_of_ne (by decide), Function.update_of_ne (by decide),
      Function.update_of_ne (by decide), hσ1, Function.update_self, Function.update_of_ne (by decide),
      Function.update_of_ne (by decide), h27, h28]
  · intro i h1 h2 hn
    dsimp only
    rw [if_pos ⟨h1, h2⟩, Nat.sub_add_cancel h1]
    have e1 := hzr i ⟨h1, h2⟩
    have e2 : 1 + (i - 1) = i := by omega
    rw [e2, hD0, serial_gas L dm _ _ _ h2, zero_sub] at e1
    have e4 := sumOf_near (le_refl (0 : ℝ)) (fun a _ _ => Near.refl (f i a)) (hsum i h1 h2)
    have e5 := (e4.neg.round e1).dist
    have e6 : ∀ a ∈ Finset.range L.numBins, f i (a + 1) = 0 := by
      intro a ha
      rw [Finset.mem_range] at ha
      have := gasColumn_not_mem _ (dm (a + 1)) _ hn
      rw [Nat.sub_add_cancel h1] at this
      rw [hf, if_pos (by omega), this]
    unfold fsum at e5
    rw [Finset.sum_eq_zero e6, Finset.sum_eq_zero (fun a ha => by dsimp only; rw [e6 a ha, abs_zero]), mul_zero, neg_zero, sub_zero] at e5
    exact abs_nonpos_iff.1 e5
  · intro hnd j hj
    have hv := F.valid _ (List.getElem_mem hj)
    have hjc : j < L.numCond := lt_of_lt_of_le hj F.len
    have e1 := hzr (L.incl[j] + 1) ⟨by omega, by omega⟩
    have e2 : 1 + (L.incl[j] + 1 - 1) = L.incl[j] + 1 := by omega
    rw [e2, hD0, serial_gas L dm _ _ _ (by omega), zero_sub] at e1
    have e4 := sumOf_near (le_refl (0 : ℝ)) (fun a _ _ => Near.refl (f (L.incl[j] + 1) a)) (hsum (L.incl[j] + 1) (by omega) (by omega))
    have ef : ∀ b ∈ Finset.range L.numBins, f (L.incl[j] + 1) (b + 1) =
        (fun i => if 1 ≤ i ∧ i ≤ L.numSpecies then z (i - 1 + 1) else D0 i) (L.numSpecies + b * L.numCond + j + 1) := by
      intro b hb
      rw [Finset.mem_range] at hb
      dsimp only
      rw [hf, if_pos (by omega), if_neg (by omega), hD0, serial_slot L dm _ _ _ _ hjc, if_pos hb, gasColumn_get _ _ hnd]
    unfold fsum at e4
    rw [Finset.sum_congr rfl ef, Finset.sum_congr rfl (fun b hb => congrArg abs (ef b hb))] at e4
    have e5 := (e4.neg.round e1).mono (c' := (L.numBins + 1) * du) (by have := dbl_le_du; linarith) le_rfl
    rw [show (fun i => if 1 ≤ i ∧ i ≤ L.numSpecies then z (i - 1 + 1) else D0 i) (L.incl[j] + 1) = z (L.incl[j] + 1) from
      if_pos (by omega)]
    exact e5

theorem part_raw (F : Fits L total) (hs : 1 ≤ L.numSpecies) (U : Unused L) {g : Junk} {out : List V}
    (h : (partRoutine L total).RoundedCall g (callArgs L total P U) out) :
    ∃ (soa : ℝ) (aw size D : ℕ → ℝ),
      out = [.real soa, .arr (vec L.numBins aw), .arr (vec L.numBins size), .arr (vec total D)] ∧
      (∀ i, 1 ≤ i → i ≤ L.numSpecies → i - 1 ∉ L.incl → D i = 0) ∧
      (L.incl.Nodup → ∀ (j : ℕ) (hj : j < L.incl.length), Near ((L.numBins + 1) * du)
        (∑ b ∈ Finset.range L.numBins, |D (L.numSpecies + b * L.numCond + j + 1)|)
        (-∑ b ∈ Finset.range L.numBins, D (L.numSpecies + b * L.numCond + j + 1)) (D (L.incl[j] + 1))) := by
  obtain ⟨β, σ₀, σ₁, σ₂, σ₃, a, b, h1, h2, h3, h4, h5, h6, h7, rfl⟩ := h
  obtain ⟨σ', b1, b2, b3⟩ := binds (P := P) (total := total) U β
  cases b1.symm.trans h2
  have I := b3 (blank_other h1 (x := 60) rfl (fun q h => by cases h)) (blank_other h1 (x := 61) rfl (fun q h => by cases h))
  have h0 := loop_start (Λ := 0) (X := 0) I (by rw [b2]; exact blank_pi h1) (bind_typed h2 (rblank_typed h1)) h3
  obtain ⟨dm, -, d1, d2⟩ := h0.dy
  have r0 : RawAt L total 0 σ₁ := ⟨h0.T, h0.I.species, h0.I.cond, dm, d1, d2⟩
  have ha : a = 1 := by
    have : some (V.int 1) = some (V.int a) := h4
    have := V.int.inj (Option.some.inj this)
    omega
  have hb : b = L.numBins := by
    have : some (V.int L.numBins) = some (V.int b) := h5
    have := V.int.inj (Option.some.inj this)
    omega
  subst ha hb
  rw [Nat.add_sub_cancel] at h6
  exact raw_end F hs (raw_passes F L.numBins (by omega) r0 h6) h7

end

end Ft
end PyBox
