import Verif.Aerosol.PartTrace
import Mathlib.Tactic.IntervalCases

/-!
# The loop of the partitioning routine under any order of execution

The values of the variables after any beginning of a possible order of execution of the parallel loop of
`Partitioning.f90`.
-/

namespace PyBox
namespace Ft

open Aerosol

/-! ### Statements of the body -/

def partBody (L : Aerosol.Layout) : List Stmt := partBody1 ++ L.incl.zipIdx.map gasStmt ++ partBody2

theorem partBody_length (L : Aerosol.Layout) : (partBody L).length = L.incl.length + 29 := by
  simp [partBody, partBody1, partBody2]

theorem body1_length : partBody1.length = 26 := rfl

theorem body_first (L : Aerosol.Layout) {k : ℕ} (h1 : 1 ≤ k) (h2 : k ≤ 26) : (partBody L)[k - 1]? = some (stmtAt k) := by
  unfold partBody stmtAt
  rw [List.append_assoc, List.getElem?_append_left (by rw [body1_length]; omega)]
  rw [List.getElem?_eq_getElem (by rw [body1_length]; omega)]
  rfl

theorem body_gas (L : Aerosol.Layout) {j : ℕ} (h : j < L.incl.length) :
    (partBody L)[27 + j - 1]? = some (gasStmt (L.incl[j], j)) := by
  unfold partBody
  rw [List.getElem?_append_left (by simp [body1_length]; omega),
    List.getElem?_append_right (by rw [body1_length]; omega), body1_length]
  have : 27 + j - 1 - 26 = j := by omega
  rw [this]
  simp [List.getElem?_eq_getElem h]

theorem body_last (L : Aerosol.Layout) (j : ℕ) :
    (partBody L)[L.incl.length + 27 + j - 1]? = partBody2[j]? := by
  unfold partBody
  rw [List.getElem?_append_right (by simp [body1_length]; omega)]
  congr 1
  simp [body1_length]
  omega

theorem target_name {k : ℕ} (h1 : 1 ≤ k) (h2 : k ≤ 26) : (stmtAt k).target.name = target k := by
  interval_cases k <;> rfl

section Step

variable {L : Aerosol.Layout} {P : PartInput} {b total : ℕ} {strict : Prop} {σ : Store}

theorem step_known (c : Ctx L P b total strict σ) {k : ℕ} (h1 : 1 ≤ k) (h2 : k ≤ 26) (K : Known L P b (k - 1) σ) :
    ∃ v, (stmtAt k).step strict σ = some v ∧ Fact L P b k v := by
  have arr40 : ∃ f, σ 40 = .arr (vec L.numBins f) := shape_arr (typed_get c.T 40 rfl)
  have arr27 : ∃ f, σ 27 = .arr (vec L.numBins f) := shape_arr (typed_get c.T 27 rfl)
  have arr28 : ∃ f, σ 28 = .arr (vec L.numBins f) := shape_arr (typed_get c.T 28 rfl)
  obtain ⟨f40, h40⟩ := arr40
  obtain ⟨f27, h27⟩ := arr27
  obtain ⟨f28, h28⟩ := arr28
  interval_cases k
  · exact ⟨_, step1 c K, rfl⟩
  · exact ⟨_, step2 c K, rfl⟩
  · exact ⟨_, step3 c K, rfl⟩
  · obtain ⟨z, h⟩ := step4 c K
    exact ⟨_, h, z, rfl⟩
  · exact ⟨_, step5 c K, rfl⟩
  · obtain ⟨z, h⟩ := step6 c
    exact ⟨_, h, z, rfl⟩
  · exact ⟨_, step7 c K, rfl⟩
  · exact ⟨_, step8 c K h40, trivial⟩
  · obtain ⟨v, h⟩ := step9 c K
    exact ⟨v, h, trivial⟩
  · exact ⟨_, step10 c K h27, trivial⟩
  · exact ⟨_, step11 c K, rfl⟩
  · exact ⟨_, step12 c K, rfl⟩
  · exact ⟨_, step13 c K, rfl⟩
  · exact ⟨_, step14 c K h28, _, rfl, Function.update_self ..⟩
  · exact ⟨_, step15 c K, rfl⟩
  · exact ⟨_, step16 c K, rfl⟩
  · exact ⟨_, step17 c K, rfl⟩
  · exact ⟨_, step18 c, rfl⟩
  · exact ⟨_, step19 c K, rfl⟩
  · exact ⟨_, step20 c K, rfl⟩
  · exact ⟨_, step21 c K, rfl⟩
  · exact ⟨_, step22 c K, rfl⟩
  · exact ⟨_, step23 c K, rfl⟩
  · exact ⟨_, step24 c K, rfl⟩
  · exact ⟨_, step25 c K, rfl⟩
  · exact ⟨_, step26 c K, rfl⟩

/-- What has been computed stays known after the next statement. -/
theorem known_succ {k : ℕ} (h2 : k ≤ 26) (K : Known L P b (k - 1) σ) {v : V} (hv : Fact L P b k v) :
    Known L P b k (Function.update σ (target k) v) := by
  intro j hj hj'
  rcases Nat.lt_or_ge j k with h | h
  · have hF := K j (by omega) hj'
    by_cases ht : target j = target k
    · rw [ht, Function.update_self]
      have : (j = 4 ∧ k = 5) ∨ (j = 6 ∧ k = 7) :=
        (by decide +kernel : ∀ k < 27, ∀ j < k, target j = target k → (j = 4 ∧ k = 5) ∨ (j = 6 ∧ k = 7))
          k (by omega) j h ht
      rcases this with ⟨rfl, rfl⟩ | ⟨rfl, rfl⟩
      · exact ⟨P.coreMass b, hv⟩
      · exact ⟨P.coreDensity b, hv⟩
    · rw [Function.update_of_ne ht]
      exact hF
  · have : j = k := by omega
    subst this
    rw [Function.update_self]
    exact hv

/-- Shared variables about which nothing needs to be known. -/
theorem known_shared {k x : ℕ} (hx : x ∈ [40, 54, 27, 39, 57, 58, 29]) (K : Known L P b k σ) (v : V) :
    Known L P b k (Function.update σ x v) := by
  intro j hj hj'
  have hF := K j hj hj'
  by_cases h : target j = x
  · have : j = 8 ∨ j = 9 ∨ j = 10 := by
      subst h
      clear hF hj K
      interval_cases j <;> first | omega | exact absurd hx (by decide)
    rcases this with rfl | rfl | rfl <;> trivial
  · rwa [Function.update_of_ne h]

theorem known_more {k : ℕ} (h : 26 ≤ k) (K : Known L P b k σ) (k' : ℕ) : Known L P b k' σ :=
  fun j _ hj => K j (by omega) hj

theorem known_trivial {k : ℕ} (hk : k = 8 ∨ k = 9 ∨ k = 10) (K : Known L P b (k - 1) σ) : Known L P b k σ := by
  intro j hj hj'
  rcases Nat.lt_or_ge j k with h | h
  · exact K j (by omega) hj'
  · have : j = k := by omega
    subst this
    rcases hk with rfl | rfl | rfl <;> trivial

/-- Sizes of other bins. -/
theorem known_size {k b' : ℕ} {f : ℕ → ℝ} {y : ℝ} (hf : σ 28 = .arr (vec L.numBins f)) (hb : b' ≠ b)
    (K : Known L P b' k σ) (h1 : 1 ≤ b') (h2 : b' ≤ L.numBins) :
    Known L P b' k (Function.update σ 28 (.arr (vec L.numBins (Function.update f b y)))) := by
  intro j hj hj'
  have hF := K j hj hj'
  by_cases h : target j = 28
  · have : j = 14 := by
      clear hF hj K
      interval_cases j <;> first | omega | exact absurd h (by decide)
    subst this
    rw [h, Function.update_self]
    obtain ⟨g, hg, hs⟩ : ∃ g, σ 28 = .arr (vec L.numBins g) ∧ g b' = sizeArray L P b' := hF
    refine ⟨_, rfl, ?_⟩
    rw [Function.update_of_ne hb, ← hs]
    rw [hf] at hg
    have hl : vec L.numBins f = vec L.numBins g := V.arr.inj hg
    have h3 := congrArg (fun l => l.getD (b' - 1) 0) hl
    simpa only [vec_getD h1 h2] using h3
  · rwa [Function.update_of_ne h]

/-- Assigning the mass transfer to the gas. -/
theorem step_gas (K : Known L P b 26 σ) {f : ℕ → ℕ → ℝ} (hf : σ 39 = .mat L.numSpecies L.numBins f)
    (h1 : 1 ≤ b) (h2 : b ≤ L.numBins) {s j : ℕ} (hs : s < L.numSpecies) (hj : j < L.numCond) :
    (gasStmt (s, j)).step strict σ = some (.mat L.numSpecies L.numBins
      (Function.update f (s + 1) (Function.update (f (s + 1)) b (dmDt L P b (j + 1))))) := by
  have h0 : σ 56 = .int b := K 0 (by omega) (by omega)
  have h26 : σ 36 = _ := K 26 (by omega) (by omega)
  have hv : (Ex.elem 36 (.int (j + 1))).val strict σ = some (.real (dmDt L P b (j + 1))) :=
    val_elem (k := j + 1) h26 rfl (by omega) (by omega)
  have i1 : inside L.numSpecies ((s + 1 : ℕ) : ℤ) := inside_nat (by omega) (by omega)
  have i2 : inside L.numBins (b : ℤ) := inside_nat h1 h2
  unfold gasStmt Stmt.step
  rw [hv]
  simp only [Option.bind_some, Ex.val, hf, h0, V.num, if_pos (And.intro i1 i2), Int.toNat_natCast]

/-- `index1`, `index2` and the part of `dy_dt`. -/
theorem step_index1 (c : Ctx L P b total strict σ) (K : Known L P b 26 σ) {s : Stmt} (hs : partBody2[0]? = some s) :
    s.step strict σ = some (.int (firstIndex L b : ℕ)) := by
  cases hs
  have h0 : σ 56 = .int b := K 0 (by omega) (by omega)
  exact step_int (typed_get c.T 57 rfl) (val_first c.I h0 c.lo)

theorem step_index2 (c : Ctx L P b total strict σ) (K : Known L P b 26 σ) {s : Stmt} (hs : partBody2[1]? = some s) :
    s.step strict σ = some (.int (lastIndex L b : ℕ)) := by
  cases hs
  have h0 : σ 56 = .int b := K 0 (by omega) (by omega)
  exact step_int (typed_get c.T 58 rfl) (val_last c.I h0)

theorem step_write (c : Ctx L P b total strict σ) (K : Known L P b 26 σ) {s : Stmt} (hs : partBody2[2]? = some s)
    {a : ℕ} (h57 : σ 57 = .int (firstIndex L a : ℕ)) (h58 : σ 58 = .int (lastIndex L a : ℕ)) (ha : 1 ≤ a)
    (ha' : a ≤ L.numBins) {d : ℕ → ℝ} (hd : σ 29 = .arr (vec total d)) :
    s.step strict σ = some (.arr (vec total (assignSlice d (firstIndex L a) (lastIndex L a) (dmDt L P b)))) := by
  cases hs
  have h26 : σ 36 = _ := K 26 (by omega) (by omega)
  have hc := c.cond
  have h1 := val_sec (strict := strict) h26 (show (Ex.int 1).val strict σ = some (.int (1 : ℕ)) from rfl)
    (val_var c.I.cond) (le_refl 1) (le_refl _) (by omega)
  have h2 : vec (L.numCond + 1 - 1) (fun i => dmDt L P b (1 + (i - 1))) = vec L.numCond (dmDt L P b) := by
    rw [Nat.add_sub_cancel]
    exact vec_congr (fun i h1 _ => congrArg _ (by omega))
  rw [h2] at h1
  have h3 := last_first (L := L) ha
  exact step_sec hd (val_var h57) (val_var h58) (by unfold firstIndex; omega) (last_le ha' c.size) (by omega) h3.symm h1

end Step

/-! ### Threads -/

section Threads

variable (c : Conf) (priv : List ℕ) (t x : ℕ) (v : V)

theorem view_shared {y : ℕ} (h : y ∉ priv) : c.view priv t y = c.shared y := by
  unfold Conf.view; rw [if_neg h]

theorem put_view_self : (c.put priv t x v).view priv t = Function.update (c.view priv t) x v := by
  funext y
  unfold Conf.put Conf.view
  by_cases hx : x ∈ priv
  · rw [if_pos hx]
    by_cases hy : y = x
    · subst hy; simp [hx]
    · by_cases hy' : y ∈ priv <;> simp [hy, hy']
  · rw [if_neg hx]
    by_cases hy : y = x
    · subst hy; simp [hx]
    · by_cases hy' : y ∈ priv <;> simp [hy, hy']

variable {c priv t x v}

theorem put_view_other {t' : ℕ} (ht : t' ≠ t) (hx : x ∈ priv) : (c.put priv t x v).view priv t' = c.view priv t' := by
  funext y
  unfold Conf.put Conf.view
  rw [if_pos hx]
  simp [Function.update_of_ne ht]

theorem put_view_both {t' : ℕ} (hx : x ∉ priv) :
    (c.put priv t x v).view priv t' = Function.update (c.view priv t') x v := by
  funext y
  unfold Conf.put Conf.view
  rw [if_neg hx]
  by_cases hy : y = x
  · subst hy; simp [hx]
  · by_cases hy' : y ∈ priv <;> simp [hy, hy']

theorem put_shared_priv (hx : x ∈ priv) : (c.put priv t x v).shared = c.shared := by
  unfold Conf.put; rw [if_pos hx]

theorem put_shared (hx : x ∉ priv) : (c.put priv t x v).shared = Function.update c.shared x v := by
  unfold Conf.put; rw [if_neg hx]

end Threads

/-! ### The invariant -/

section Inv

variable (L : Aerosol.Layout) (P : PartInput) (total : ℕ) (thr : ℕ → ℕ)

/-- What the gas lines executed so far in pass `b` have put into column `b`. -/
noncomputable def gasRun (b : ℕ) (l : List Event) : ℕ → ℝ :=
  l.foldl (fun M e => if e.pass = b ∧ 27 ≤ e.at_ then
    (match L.incl[e.at_ - 27]? with
      | some s => Function.update M (s + 1) (dmDt L P b (e.at_ - 27 + 1))
      | none => M) else M) (fun _ => 0)

/-- Element `b` of this array is right if statement `k` of pass `b` has been executed. -/
def Filled (x k : ℕ) (g : ℕ → ℝ) (pre : List Event) (σ : Store) : Prop :=
  ∃ f, σ x = .arr (vec L.numBins f) ∧ ∀ b, (⟨b, k⟩ : Event) ∈ pre → f b = g b

def GasFilled (pre : List Event) (σ : Store) : Prop :=
  ∃ f, σ 39 = .mat L.numSpecies L.numBins f ∧ ∀ b, ∀ i, f i b = gasRun L P b pre i

def Slices (pre : List Event) (σ : Store) : Prop :=
  ∃ d, σ 29 = .arr (vec total d) ∧
    d = (runEvents L (fun b => dmDt L P b) (indexEvents L.incl.length pre) ⟨0, 0, fun _ => 0⟩).dyDt

def Indices (pre : List Event) (σ : Store) : Prop :=
  (∀ a, Spec.lastBin .setIndex1 (indexEvents L.incl.length pre) = some a → σ 57 = .int (firstIndex L a : ℕ)) ∧
  (∀ a, Spec.lastBin .setIndex2 (indexEvents L.incl.length pre) = some a → σ 58 = .int (lastIndex L a : ℕ))

structure Inv (pre : List Event) (c : Conf) : Prop where
  inputs : Inputs L P total c.shared
  typed : ∀ t, Typed L total (c.view partPriv t)
  known : ∀ t b k, lastOf thr t pre = some ⟨b, k⟩ → Known L P b k (c.view partPriv t)
  soa : Filled L 40 8 (soaMassBin L P) pre c.shared
  aw : Filled L 27 10 (waterActivity L P) pre c.shared
  size : Filled L 28 14 (sizeArray L P) pre c.shared
  gas : GasFilled L P pre c.shared
  slices : Slices L P total pre c.shared
  indices : Indices L pre c.shared

variable {L P total thr} {pre : List Event} {c : Conf} {e : Event}

theorem Filled.frame {x k : ℕ} {g : ℕ → ℝ} {σ σ' : Store} (h : Filled L x k g pre σ) (hx : σ' x = σ x) (hk : e.at_ ≠ k) :
    Filled L x k g (pre ++ [e]) σ' := by
  obtain ⟨f, hf, hg⟩ := h
  refine ⟨f, hx.trans hf, fun b hb => hg b ?_⟩
  rcases List.mem_append.mp hb with hb | hb
  · exact hb
  · rw [List.mem_singleton] at hb
    subst hb
    exact absurd rfl hk

theorem Filled.fill {x k : ℕ} {g : ℕ → ℝ} {σ : Store} (hk : e.at_ = k)
    {f : ℕ → ℝ} (hg : ∀ b, (⟨b, k⟩ : Event) ∈ pre → f b = g b) :
    Filled L x k g (pre ++ [e])
      (Function.update σ x (.arr (vec L.numBins (Function.update f e.pass (g e.pass))))) := by
  refine ⟨_, Function.update_self .., fun b hb => ?_⟩
  by_cases h : b = e.pass
  · rw [h, Function.update_self]
  · rw [Function.update_of_ne h]
    rcases List.mem_append.mp hb with hb | hb
    · exact hg b hb
    · rw [List.mem_singleton] at hb
      subst hb
      exact absurd rfl h

theorem gasRun_frame (b : ℕ) (h : e.at_ ≤ 26 ∨ L.incl.length + 27 ≤ e.at_) :
    gasRun L P b (pre ++ [e]) = gasRun L P b pre := by
  unfold gasRun
  rw [List.foldl_append]
  simp only [List.foldl_cons, List.foldl_nil]
  rcases h with h | h
  · rw [if_neg (by omega)]
  · have : L.incl[e.at_ - 27]? = none := List.getElem?_eq_none (by omega)
    rw [this]
    simp

theorem GasFilled.frame {σ σ' : Store} (hg : GasFilled L P pre σ) (hx : σ' 39 = σ 39)
    (h : e.at_ ≤ 26 ∨ L.incl.length + 27 ≤ e.at_) : GasFilled L P (pre ++ [e]) σ' := by
  obtain ⟨f, hf, hg⟩ := hg
  exact ⟨f, hx.trans hf, fun b i => (hg b i).trans (by rw [gasRun_frame b h])⟩

theorem GasFilled.fill {σ : Store} {j : ℕ} (hj : j < L.incl.length) (he : e.at_ = 27 + j) {f : ℕ → ℕ → ℝ}
    (hg : ∀ b, ∀ i, f i b = gasRun L P b pre i) :
    GasFilled L P (pre ++ [e]) (Function.update σ 39 (.mat L.numSpecies L.numBins
      (Function.update f (L.incl[j] + 1) (Function.update (f (L.incl[j] + 1)) e.pass (dmDt L P e.pass (j + 1)))))) := by
  refine ⟨_, Function.update_self .., fun b i => ?_⟩
  unfold gasRun
  rw [List.foldl_append]
  simp only [List.foldl_cons, List.foldl_nil]
  have hsub : e.at_ - 27 = j := by omega
  rw [hsub, List.getElem?_eq_getElem hj]
  by_cases hb : e.pass = b
  · rw [if_pos ⟨hb, by omega⟩]
    subst hb
    by_cases hi : i = L.incl[j] + 1
    · subst hi
      simp
    · rw [Function.update_of_ne hi]
      simp only [Function.update_of_ne hi]
      exact hg e.pass i
  · rw [if_neg (by tauto)]
    have hb' : b ≠ e.pass := fun h => hb h.symm
    by_cases hi : i = L.incl[j] + 1
    · subst hi
      rw [Function.update_self, Function.update_of_ne hb']
      exact hg b _
    · rw [Function.update_of_ne hi]
      exact hg b i

theorem indexEvent_none {m : ℕ} (h : e.at_ ≤ m + 26) : indexEvent m e = none := by
  unfold indexEvent stageOf
  rw [if_neg (by omega), if_neg (by omega), if_neg (by omega)]
  rfl

theorem indexEvents_frame {m : ℕ} (h : e.at_ ≤ m + 26) : indexEvents m (pre ++ [e]) = indexEvents m pre := by
  rw [indexEvents_snoc, indexEvent_none h]
  simp

theorem inputs_congr {σ σ' : Store} (I : Inputs L P total σ)
    (h : ∀ x ∈ [0, 1, 2, 3, 4, 5, 6, 7, 8, 10, 12, 13, 14, 20, 21, 24, 25, 59, 60, 61], σ' x = σ x) :
    Inputs L P total σ' where
  y := (h 0 (by decide)).trans I.y
  ycore := (h 1 (by decide)).trans I.ycore
  coreMass := (h 2 (by decide)).trans I.coreMass
  coreDensity := (h 3 (by decide)).trans I.coreDensity
  nPerBin := (h 4 (by decide)).trans I.nPerBin
  densityInput := (h 5 (by decide)).trans I.densityInput
  dStar := (h 6 (by decide)).trans I.dStar
  alpha := (h 7 (by decide)).trans I.alpha
  gamma := (h 8 (by decide)).trans I.gamma
  cgas := (h 10 (by decide)).trans I.cgas
  mw := (h 12 (by decide)).trans I.mw
  psat := (h 13 (by decide)).trans I.psat
  coreDiss := (h 14 (by decide)).trans I.coreDiss
  sigma := (h 20 (by decide)).trans I.sigma
  na := (h 21 (by decide)).trans I.na
  rGas := (h 24 (by decide)).trans I.rGas
  temp := (h 25 (by decide)).trans I.temp
  pi := (h 59 (by decide)).trans I.pi
  species := (h 60 (by decide)).trans I.species
  cond := (h 61 (by decide)).trans I.cond

/-- The variables of `Inputs`. -/
def inputVars : List ℕ := [0, 1, 2, 3, 4, 5, 6, 7, 8, 10, 12, 13, 14, 20, 21, 24, 25, 59, 60, 61]

theorem inputs_update {σ : Store} {x : ℕ} {v : V} (I : Inputs L P total σ) (hx : x ∉ inputVars) :
    Inputs L P total (Function.update σ x v) :=
  inputs_congr I (fun y hy => Function.update_of_ne (fun (h : y = x) => hx (h ▸ hy)) ..)

theorem inputs_view (I : Inputs L P total c.shared) (t : ℕ) : Inputs L P total (c.view partPriv t) :=
  inputs_congr I (fun x hx => view_shared c partPriv t
    ((by decide : ∀ x ∈ [0, 1, 2, 3, 4, 5, 6, 7, 8, 10, 12, 13, 14, 20, 21, 24, 25, 59, 60, 61], x ∉ partPriv) x hx))

theorem typed_update {σ : Store} {x : ℕ} {v : V} (T : Typed L total σ) (h : v.shape = (σ x).shape) :
    Typed L total (Function.update σ x v) := by
  intro y d hd
  by_cases hy : y = x
  · subst hy
    rw [Function.update_self, h]
    exact T y d hd
  · rw [Function.update_of_ne hy]
    exact T y d hd

theorem typed_put (T : ∀ t, Typed L total (c.view partPriv t)) {t x : ℕ} {v : V}
    (h : v.shape = (c.view partPriv t x).shape) (t' : ℕ) : Typed L total ((c.put partPriv t x v).view partPriv t') := by
  by_cases hx : x ∈ partPriv
  · by_cases ht : t' = t
    · subst ht
      rw [put_view_self]
      exact typed_update (T t') h
    · rw [put_view_other ht hx]
      exact T t'
  · rw [put_view_both hx]
    refine typed_update (T t') ?_
    rw [h, view_shared _ _ _ hx, view_shared _ _ _ hx]

/-- A statement that assigns to a private variable. -/
theorem Inv.private (I : Inv L P total thr pre c) {x : ℕ} {v : V} (hx : x ∈ partPriv) (hk : e.at_ ≤ 26)
    (hk' : e.at_ ≠ 8 ∧ e.at_ ≠ 10 ∧ e.at_ ≠ 14) (hs : v.shape = (c.view partPriv (thr e.pass) x).shape)
    (hK : Known L P e.pass e.at_ (Function.update (c.view partPriv (thr e.pass)) x v)) :
    Inv L P total thr (pre ++ [e]) (c.put partPriv (thr e.pass) x v) := by
  have hsh : (c.put partPriv (thr e.pass) x v).shared = c.shared := put_shared_priv hx
  have hix : indexEvents L.incl.length (pre ++ [e]) = indexEvents L.incl.length pre := indexEvents_frame (by omega)
  refine ⟨by rw [hsh]; exact I.inputs, typed_put I.typed hs, ?_, ?_, ?_, ?_, ?_, ?_, ?_⟩
  · intro t b k hl
    by_cases ht : thr e.pass = t
    · subst ht
      rw [lastOf_snoc_self] at hl
      cases hl
      rw [put_view_self]
      exact hK
    · rw [lastOf_snoc_other _ ht] at hl
      rw [put_view_other (fun h => ht h.symm) hx]
      exact I.known t b k hl
  · rw [hsh]; exact I.soa.frame rfl hk'.1
  · rw [hsh]; exact I.aw.frame rfl hk'.2.1
  · rw [hsh]; exact I.size.frame rfl hk'.2.2
  · rw [hsh]; exact I.gas.frame rfl (.inl hk)
  · rw [hsh]; unfold Slices; rw [hix]; exact I.slices
  · rw [hsh]; unfold Indices; rw [hix]; exact I.indices

/-- What other threads know, when a shared variable changes. -/
theorem known_others (I : Inv L P total thr pre c) {x : ℕ} {v : V} (hx : x ∈ [40, 54, 27, 39, 57, 58, 29])
    (hp : x ∉ partPriv) (hK : Known L P e.pass e.at_ (c.view partPriv (thr e.pass))) (t b k : ℕ)
    (hl : lastOf thr t (pre ++ [e]) = some ⟨b, k⟩) :
    Known L P b k ((c.put partPriv (thr e.pass) x v).view partPriv t) := by
  rw [put_view_both hp]
  refine known_shared hx ?_ v
  by_cases ht : thr e.pass = t
  · subst ht
    rw [lastOf_snoc_self] at hl
    cases hl
    exact hK
  · rw [lastOf_snoc_other _ ht] at hl
    exact I.known t b k hl

theorem put_self {x : ℕ} {v : V} {t : ℕ} (hp : x ∉ partPriv) :
    (c.put partPriv t x v).shared x = v := by
  rw [put_shared hp, Function.update_self]

theorem put_ne {x y : ℕ} {v : V} {t : ℕ} (hp : x ∉ partPriv) (h : y ≠ x) :
    (c.put partPriv t x v).shared y = c.shared y := by
  rw [put_shared hp, Function.update_of_ne h]

/-- Layouts for which the statements stay within the arrays. -/
structure Fits (L : Aerosol.Layout) (total : ℕ) : Prop where
  size : total = L.numSpecies + L.numBins * L.numCond
  cond : 1 ≤ L.numCond
  len : L.incl.length ≤ L.numCond
  valid : ∀ s ∈ L.incl, s < L.numSpecies

variable {strict : Prop}

theorem loop_event {s : Stmt} {v : V} (h0 : e.at_ ≠ 0) (hs : (partBody L)[e.at_ - 1]? = some s)
    (hv : s.step strict (c.view partPriv (thr e.pass)) = some v) :
    (partRoutine L total).loop.event strict thr e c =
      some (c.put partPriv (thr e.pass) s.target.name v) := by
  unfold Loop.event
  rw [if_neg h0]
  show ((partBody L)[e.at_ - 1]?).bind (fun s => (s.step strict (c.view partPriv (thr e.pass))).map
    (fun v => c.put partPriv (thr e.pass) s.target.name v)) = _
  rw [hs, Option.bind_some, hv, Option.map_some]

theorem event_ok (F : Fits L total) (D : strict → ∀ b, 1 ≤ b → b ≤ L.numBins → Defined L P b)
    {post : List Event} (hI : Interleaved (L.incl.length + 29) 1 L.numBins thr (pre ++ e :: post))
    (I : Inv L P total thr pre c)
    (hp : e.at_ = L.incl.length + 29 → Spec.lastBin .setIndex1 (indexEvents L.incl.length pre) =
      Spec.lastBin .setIndex2 (indexEvents L.incl.length pre)) :
    ∃ c', (partRoutine L total).loop.event strict thr e c = some c' ∧ Inv L P total thr (pre ++ [e]) c' := by
  have hmem : e ∈ allEvents (L.incl.length + 29) 1 L.numBins := (mem_interleaved hI e).mp (by simp)
  obtain ⟨hb1, hb2, hk⟩ := mem_allEvents.mp hmem
  have hb3 : e.pass ≤ L.numBins := by omega
  have C : Ctx L P e.pass total strict (c.view partPriv (thr e.pass)) :=
    ⟨inputs_view I.inputs _, I.typed _, hb1, hb3, F.size, F.cond, fun h => D h _ hb1 hb3⟩
  rcases interleaved_before hI with h0 | hlast
  · -- the counter
    refine ⟨_, if_pos h0, ?_⟩
    obtain ⟨z, hz⟩ := shape_int (show (c.view partPriv (thr e.pass) 56).shape = .int from typed_get (I.typed _) 56 rfl)
    refine I.private (x := 56) (by decide) (by omega) ⟨by omega, by omega, by omega⟩ (by rw [hz]; rfl) ?_
    intro j hj _
    have : j = 0 := by omega
    subst this
    exact Function.update_self ..
  have K := I.known _ _ _ hlast
  by_cases h0 : e.at_ = 0
  · refine ⟨_, if_pos h0, ?_⟩
    obtain ⟨z, hz⟩ := shape_int (show (c.view partPriv (thr e.pass) 56).shape = .int from typed_get (I.typed _) 56 rfl)
    refine I.private (x := 56) (by decide) (by omega) ⟨by omega, by omega, by omega⟩ (by rw [hz]; rfl) ?_
    intro j hj _
    have : j = 0 := by omega
    subst this
    exact Function.update_self ..
  rcases Nat.lt_or_ge 26 e.at_ with h26 | h26
  · -- after `dm_dt`
    have K26 : Known L P e.pass 26 (c.view partPriv (thr e.pass)) := known_more (by omega) K 26
    have Kk : Known L P e.pass e.at_ (c.view partPriv (thr e.pass)) := known_more (by omega) K _
    rcases Nat.lt_or_ge (e.at_ - 27) L.incl.length with hj | hj
    · -- gas lines
      obtain ⟨j, hj'⟩ : ∃ j, e.at_ = 27 + j := ⟨e.at_ - 27, by omega⟩
      have hjl : j < L.incl.length := by omega
      have hbody := body_gas L hjl
      rw [← hj'] at hbody
      obtain ⟨f, hf, hg⟩ := I.gas
      have hstep := step_gas (strict := strict) K26 ((view_shared c partPriv (thr e.pass) (by decide)).trans hf) hb1 hb3
        (F.valid _ (List.getElem_mem hjl)) (Nat.lt_of_lt_of_le hjl F.len)
      refine ⟨_, loop_event h0 hbody hstep, ?_⟩
      have hx : (gasStmt (L.incl[j], j)).target.name = 39 := rfl
      rw [hx]
      have hp39 : 39 ∉ partPriv := by decide
      have hix : indexEvents L.incl.length (pre ++ [e]) = indexEvents L.incl.length pre := indexEvents_frame (by omega)
      refine ⟨?_, typed_put I.typed (step_shape hstep), known_others I (by decide) hp39 Kk, ?_, ?_, ?_, ?_, ?_, ?_⟩
      · rw [put_shared hp39]; exact inputs_update I.inputs (by decide)
      · exact I.soa.frame (put_ne hp39 (by decide)) (by omega)
      · exact I.aw.frame (put_ne hp39 (by decide)) (by omega)
      · exact I.size.frame (put_ne hp39 (by decide)) (by omega)
      · rw [put_shared hp39]; exact GasFilled.fill hjl hj' hg
      · unfold Slices; rw [hix, put_ne hp39 (by decide)]; exact I.slices
      · unfold Indices; rw [hix, put_ne hp39 (by decide), put_ne hp39 (by decide)]; exact I.indices
    · obtain ⟨j, hj'⟩ : ∃ j, e.at_ = L.incl.length + 27 + j := ⟨e.at_ - (L.incl.length + 27), by omega⟩
      have hj3 : j < 3 := by omega
      have hbody := body_last L j
      rw [← hj'] at hbody
      have hgas : e.at_ ≤ 26 ∨ L.incl.length + 27 ≤ e.at_ := .inr (by omega)
      have hix := indexEvents_snoc L.incl.length pre e
      interval_cases j
      · -- `index1`
        have hie : indexEvent L.incl.length e = some ⟨e.pass, .setIndex1⟩ := by
          unfold indexEvent stageOf
          rw [if_pos (by omega)]
          rfl
        rw [hie] at hix
        obtain ⟨s, hs⟩ : ∃ s, partBody2[0]? = some s := ⟨_, rfl⟩
        have hstep := step_index1 C K26 hs
        have hx : s.target.name = 57 := by cases hs; rfl
        refine ⟨_, loop_event h0 (hbody.trans hs) hstep, ?_⟩
        have hsh := step_shape hstep
        rw [hx] at hsh ⊢
        have hp57 : 57 ∉ partPriv := by decide
        refine ⟨?_, typed_put I.typed hsh, known_others I (by decide) hp57 Kk, ?_, ?_, ?_, ?_, ?_, ?_⟩
        · rw [put_shared hp57]; exact inputs_update I.inputs (by decide)
        · exact I.soa.frame (put_ne hp57 (by decide)) (by omega)
        · exact I.aw.frame (put_ne hp57 (by decide)) (by omega)
        · exact I.size.frame (put_ne hp57 (by decide)) (by omega)
        · exact I.gas.frame (put_ne hp57 (by decide)) hgas
        · obtain ⟨d, hd, hd'⟩ := I.slices
          refine ⟨d, (put_ne hp57 (by decide)).trans hd, ?_⟩
          rw [hix, Option.toList_some, runEvents_snoc, hd']
          rfl
        · unfold Indices
          rw [hix, Option.toList_some, put_self hp57, put_ne hp57 (by decide)]
          refine ⟨fun a ha => ?_, fun a ha => ?_⟩
          · rw [lastBin_snoc, if_pos rfl] at ha
            cases ha
            rfl
          · rw [lastBin_snoc, if_neg Stage.noConfusion] at ha
            exact I.indices.2 a ha
      · -- `index2`
        have hie : indexEvent L.incl.length e = some ⟨e.pass, .setIndex2⟩ := by
          unfold indexEvent stageOf
          rw [if_neg (by omega), if_pos (by omega)]
          rfl
        rw [hie] at hix
        obtain ⟨s, hs⟩ : ∃ s, partBody2[1]? = some s := ⟨_, rfl⟩
        have hstep := step_index2 C K26 hs
        have hx : s.target.name = 58 := by cases hs; rfl
        refine ⟨_, loop_event h0 (hbody.trans hs) hstep, ?_⟩
        have hsh := step_shape hstep
        rw [hx] at hsh ⊢
        have hp57 : 58 ∉ partPriv := by decide
        refine ⟨?_, typed_put I.typed hsh, known_others I (by decide) hp57 Kk, ?_, ?_, ?_, ?_, ?_, ?_⟩
        · rw [put_shared hp57]; exact inputs_update I.inputs (by decide)
        · exact I.soa.frame (put_ne hp57 (by decide)) (by omega)
        · exact I.aw.frame (put_ne hp57 (by decide)) (by omega)
        · exact I.size.frame (put_ne hp57 (by decide)) (by omega)
        · exact I.gas.frame (put_ne hp57 (by decide)) hgas
        · obtain ⟨d, hd, hd'⟩ := I.slices
          refine ⟨d, (put_ne hp57 (by decide)).trans hd, ?_⟩
          rw [hix, Option.toList_some, runEvents_snoc, hd']
          rfl
        · unfold Indices
          rw [hix, Option.toList_some, put_self hp57, put_ne hp57 (by decide)]
          refine ⟨fun a ha => ?_, fun a ha => ?_⟩
          · rw [lastBin_snoc, if_neg Stage.noConfusion] at ha
            exact I.indices.1 a ha
          · rw [lastBin_snoc, if_pos rfl] at ha
            cases ha
            rfl
      · -- the write
        have hie : indexEvent L.incl.length e = some ⟨e.pass, .writeSlice⟩ := by
          unfold indexEvent stageOf
          rw [if_neg (by omega), if_neg (by omega), if_pos (by omega)]
          rfl
        rw [hie] at hix
        obtain ⟨s, hs⟩ : ∃ s, partBody2[2]? = some s := ⟨_, rfl⟩
        -- the bin of the indices
        have hp' := hp (by omega)
        have hpe : (⟨e.pass, L.incl.length + 28⟩ : Event) ∈ pre := by
          have := (lastOf_mem hlast).1
          have he : e.at_ - 1 = L.incl.length + 28 := by omega
          rwa [he] at this
        obtain ⟨a, ha2⟩ : ∃ a, Spec.lastBin .setIndex2 (indexEvents L.incl.length pre) = some a := by
          cases hn : Spec.lastBin .setIndex2 (indexEvents L.incl.length pre) with
          | some a => exact ⟨a, rfl⟩
          | none =>
            exfalso
            unfold Spec.lastBin at hn
            simp only [Option.map_eq_none_iff, List.getLast?_eq_none_iff, List.filter_eq_nil_iff] at hn
            refine hn ⟨e.pass, .setIndex2⟩ (List.mem_filterMap.mpr ⟨_, hpe, ?_⟩) (by simp)
            unfold indexEvent stageOf
            rw [if_neg (by simp), if_pos (by simp)]
            rfl
        have ha1 : Spec.lastBin .setIndex1 (indexEvents L.incl.length pre) = some a := hp'.trans ha2
        have hae : ∃ x ∈ pre, x.pass = a := by
          unfold Spec.lastBin at ha2
          rw [Option.map_eq_some_iff] at ha2
          obtain ⟨x, hx, hxa⟩ := ha2
          have hm := (List.mem_filter.mp (List.mem_of_getLast? hx)).1
          obtain ⟨y, hy, hyx⟩ := List.mem_filterMap.mp hm
          unfold indexEvent at hyx
          rw [Option.map_eq_some_iff] at hyx
          obtain ⟨st, -, rfl⟩ := hyx
          exact ⟨y, hy, hxa⟩
        obtain ⟨x, hxp, hxa⟩ := hae
        have hxm := mem_allEvents.mp ((mem_interleaved hI x).mp (by simp [hxp]))
        obtain ⟨d, hd, hd'⟩ := I.slices
        have hstep := step_write C K26 hs ((view_shared c partPriv (thr e.pass) (by decide)).trans (I.indices.1 a ha1))
          ((view_shared c partPriv (thr e.pass) (by decide)).trans (I.indices.2 a ha2)) (by omega) (by omega)
          ((view_shared c partPriv (thr e.pass) (by decide)).trans hd)
        have hx : s.target.name = 29 := by cases hs; rfl
        refine ⟨_, loop_event h0 (hbody.trans hs) hstep, ?_⟩
        have hsh := step_shape hstep
        rw [hx] at hsh ⊢
        have hp57 : 29 ∉ partPriv := by decide
        refine ⟨?_, typed_put I.typed hsh, known_others I (by decide) hp57 Kk, ?_, ?_, ?_, ?_, ?_, ?_⟩
        · rw [put_shared hp57]; exact inputs_update I.inputs (by decide)
        · exact I.soa.frame (put_ne hp57 (by decide)) (by omega)
        · exact I.aw.frame (put_ne hp57 (by decide)) (by omega)
        · exact I.size.frame (put_ne hp57 (by decide)) (by omega)
        · exact I.gas.frame (put_ne hp57 (by decide)) hgas
        · refine ⟨_, put_self hp57, ?_⟩
          rw [hix, Option.toList_some, runEvents_snoc]
          show _ = assignSlice _ _ _ _
          rw [index1_last L _ _ _ a ha1, index2_last L _ _ _ a ha2, ← hd']
        · unfold Indices
          rw [hix, Option.toList_some, put_ne hp57 (by decide), put_ne hp57 (by decide)]
          refine ⟨fun a ha => ?_, fun a ha => ?_⟩
          · rw [lastBin_snoc, if_neg Stage.noConfusion] at ha
            exact I.indices.1 a ha
          · rw [lastBin_snoc, if_neg Stage.noConfusion] at ha
            exact I.indices.2 a ha
  · -- up to `dm_dt`
    have hk1 : 1 ≤ e.at_ := by omega
    have hbody := body_first L hk1 h26
    have hname := target_name hk1 h26
    have hix : indexEvents L.incl.length (pre ++ [e]) = indexEvents L.incl.length pre := indexEvents_frame (by omega)
    by_cases h8 : e.at_ = 8
    · obtain ⟨f, hf, hg⟩ := I.soa
      have hs : stmtAt e.at_ = stmtAt 8 := by rw [h8]
      have hstep := step8 C (by rw [h8] at K; exact K) ((view_shared c partPriv (thr e.pass) (by decide)).trans hf)
      refine ⟨_, loop_event h0 (hbody.trans (congrArg some hs)) hstep, ?_⟩
      have hsh := step_shape hstep
      have hx : (stmtAt 8).target.name = 40 := rfl
      rw [hx] at hsh ⊢
      have hp57 : 40 ∉ partPriv := by decide
      refine ⟨?_, typed_put I.typed hsh, known_others I (by decide) hp57 (known_trivial (.inl h8) K), ?_, ?_, ?_, ?_, ?_, ?_⟩
      · rw [put_shared hp57]; exact inputs_update I.inputs (by decide)
      · rw [put_shared hp57]; exact Filled.fill h8 hg
      · exact I.aw.frame (put_ne hp57 (by decide)) (by omega)
      · exact I.size.frame (put_ne hp57 (by decide)) (by omega)
      · exact I.gas.frame (put_ne hp57 (by decide)) (.inl h26)
      · unfold Slices; rw [hix, put_ne hp57 (by decide)]; exact I.slices
      · unfold Indices; rw [hix, put_ne hp57 (by decide), put_ne hp57 (by decide)]; exact I.indices
    by_cases h9 : e.at_ = 9
    · have hs : stmtAt e.at_ = stmtAt 9 := by rw [h9]
      obtain ⟨v, hstep⟩ := step9 C (by rw [h9] at K; exact K)
      refine ⟨_, loop_event h0 (hbody.trans (congrArg some hs)) hstep, ?_⟩
      have hsh := step_shape hstep
      have hx : (stmtAt 9).target.name = 54 := rfl
      rw [hx] at hsh ⊢
      have hp57 : 54 ∉ partPriv := by decide
      refine ⟨?_, typed_put I.typed hsh, known_others I (by decide) hp57 (known_trivial (.inr (.inl h9)) K),
        ?_, ?_, ?_, ?_, ?_, ?_⟩
      · rw [put_shared hp57]; exact inputs_update I.inputs (by decide)
      · exact I.soa.frame (put_ne hp57 (by decide)) (by omega)
      · exact I.aw.frame (put_ne hp57 (by decide)) (by omega)
      · exact I.size.frame (put_ne hp57 (by decide)) (by omega)
      · exact I.gas.frame (put_ne hp57 (by decide)) (.inl h26)
      · unfold Slices; rw [hix, put_ne hp57 (by decide)]; exact I.slices
      · unfold Indices; rw [hix, put_ne hp57 (by decide), put_ne hp57 (by decide)]; exact I.indices
    by_cases h10 : e.at_ = 10
    · obtain ⟨f, hf, hg⟩ := I.aw
      have hs : stmtAt e.at_ = stmtAt 10 := by rw [h10]
      have hstep := step10 C (by rw [h10] at K; exact K) ((view_shared c partPriv (thr e.pass) (by decide)).trans hf)
      refine ⟨_, loop_event h0 (hbody.trans (congrArg some hs)) hstep, ?_⟩
      have hsh := step_shape hstep
      have hx : (stmtAt 10).target.name = 27 := rfl
      rw [hx] at hsh ⊢
      have hp57 : 27 ∉ partPriv := by decide
      refine ⟨?_, typed_put I.typed hsh, known_others I (by decide) hp57 (known_trivial (.inr (.inr h10)) K),
        ?_, ?_, ?_, ?_, ?_, ?_⟩
      · rw [put_shared hp57]; exact inputs_update I.inputs (by decide)
      · exact I.soa.frame (put_ne hp57 (by decide)) (by omega)
      · rw [put_shared hp57]; exact Filled.fill h10 hg
      · exact I.size.frame (put_ne hp57 (by decide)) (by omega)
      · exact I.gas.frame (put_ne hp57 (by decide)) (.inl h26)
      · unfold Slices; rw [hix, put_ne hp57 (by decide)]; exact I.slices
      · unfold Indices; rw [hix, put_ne hp57 (by decide), put_ne hp57 (by decide)]; exact I.indices
    by_cases h14 : e.at_ = 14
    · obtain ⟨f, hf, hg⟩ := I.size
      have hs : stmtAt e.at_ = stmtAt 14 := by rw [h14]
      have hstep := step14 C (by rw [h14] at K; exact K) ((view_shared c partPriv (thr e.pass) (by decide)).trans hf)
      refine ⟨_, loop_event h0 (hbody.trans (congrArg some hs)) hstep, ?_⟩
      have hsh := step_shape hstep
      have hx : (stmtAt 14).target.name = 28 := rfl
      rw [hx] at hsh ⊢
      have hp57 : 28 ∉ partPriv := by decide
      refine ⟨?_, typed_put I.typed hsh, ?_, ?_, ?_, ?_, ?_, ?_, ?_⟩
      · rw [put_shared hp57]; exact inputs_update I.inputs (by decide)
      · intro t b k hl
        rw [put_view_both hp57]
        by_cases ht : thr e.pass = t
        · subst ht
          rw [lastOf_snoc_self] at hl
          have hbe : b = e.pass := by cases hl; rfl
          have hke : k = 14 := by cases hl; exact h14
          subst hbe hke
          exact known_succ (k := 14) (by omega) (by rw [h14] at K; exact K)
            (v := .arr (vec L.numBins (Function.update f e.pass (sizeArray L P e.pass))))
            ⟨_, rfl, Function.update_self ..⟩
        · rw [lastOf_snoc_other _ ht] at hl
          have hm := lastOf_mem hl
          have hm' := mem_allEvents.mp ((mem_interleaved hI _).mp (List.mem_append_left _ hm.1))
          refine known_size ((view_shared c partPriv t (by decide)).trans hf) ?_ (I.known t b k hl) hm'.1 (by
            have := hm'.2.1
            simp only at this
            omega)
          rintro rfl
          exact ht hm.2
      · exact I.soa.frame (put_ne hp57 (by decide)) (by omega)
      · exact I.aw.frame (put_ne hp57 (by decide)) (by omega)
      · rw [put_shared hp57]; exact Filled.fill h14 hg
      · exact I.gas.frame (put_ne hp57 (by decide)) (.inl h26)
      · unfold Slices; rw [hix, put_ne hp57 (by decide)]; exact I.slices
      · unfold Indices; rw [hix, put_ne hp57 (by decide), put_ne hp57 (by decide)]; exact I.indices
    obtain ⟨v, hstep, hF⟩ := step_known C hk1 h26 K
    refine ⟨_, loop_event h0 hbody hstep, ?_⟩
    have hsh := step_shape hstep
    rw [hname] at hsh ⊢
    have hpriv : target e.at_ ∈ partPriv :=
      (by decide : ∀ k < 27, (k ≠ 8 ∧ k ≠ 9 ∧ k ≠ 10 ∧ k ≠ 14) → target k ∈ partPriv) e.at_ (by omega) ⟨h8, h9, h10, h14⟩
    exact I.private hpriv h26 ⟨h8, h10, h14⟩ hsh (known_succ h26 K hF)

/-- The indices belong to different bins: the two sides of the assignment have different lengths. -/
theorem step_write_none {σ : Store} {b : ℕ} (C : Ctx L P b total strict σ) (K : Known L P b 26 σ) {s : Stmt}
    (hs : partBody2[2]? = some s) {a a' : ℕ} (h57 : σ 57 = .int (firstIndex L a : ℕ))
    (h58 : σ 58 = .int (lastIndex L a' : ℕ)) (ha : 1 ≤ a) (hne : a ≠ a') {d : ℕ → ℝ} (hd : σ 29 = .arr (vec total d)) :
    s.step strict σ = none := by
  cases hs
  have h26 : σ 36 = _ := K 26 (by omega) (by omega)
  have hc := C.cond
  have h1 := val_sec (strict := strict) h26 (show (Ex.int 1).val strict σ = some (.int (1 : ℕ)) from rfl)
    (val_var C.I.cond) (le_refl 1) (le_refl _) (by omega)
  unfold Stmt.step
  dsimp only
  rw [h1]
  simp only [Ex.val, h57, h58, hd, Option.bind_some]
  have key : ∀ old, section? (vec total d) (firstIndex L a : ℕ) (lastIndex L a' : ℕ) = some old →
      old.length ≠ L.numCond := by
    intro old ho hl
    unfold section? at ho
    split at ho
    · cases ho
      simp at hl
      omega
    · rename_i hlt
      split at ho
      · rename_i hin
        cases ho
        simp only [List.length_drop, List.length_take, vec_length, Int.toNat_natCast] at hl
        obtain ⟨⟨i1, i2⟩, i3, i4⟩ := hin
        rw [vec_length] at i2 i4
        have e1 : min (lastIndex L a') total = lastIndex L a' := by omega
        rw [e1] at hl
        unfold firstIndex lastIndex at hl hlt
        obtain ⟨a0, rfl⟩ : ∃ a0, a = a0 + 1 := ⟨a - 1, by omega⟩
        simp only [Nat.add_sub_cancel] at hl hlt
        have h3 : a' * L.numCond = (a0 + 1) * L.numCond := by
          rw [Nat.add_mul, Nat.one_mul]
          omega
        exact hne (Nat.eq_of_mul_eq_mul_right (by omega) h3).symm
      · exact absurd ho (by simp)
  cases ho : section? (vec total d) (firstIndex L a : ℕ) (lastIndex L a' : ℕ) with
  | none => rfl
  | some old =>
    rw [Option.bind_some, if_neg]
    rw [vec_length, Nat.add_sub_cancel]
    exact key old ho

theorem lastBin_some {m : ℕ} {pre : List Event} {k : ℕ} {st : Stage} {b : ℕ} (hk : stageOf m k = some st)
    (h : (⟨b, k⟩ : Event) ∈ pre) : ∃ a, Spec.lastBin st (indexEvents m pre) = some a := by
  cases hn : Spec.lastBin st (indexEvents m pre) with
  | some a => exact ⟨a, rfl⟩
  | none =>
    exfalso
    unfold Spec.lastBin at hn
    simp only [Option.map_eq_none_iff, List.getLast?_eq_none_iff, List.filter_eq_nil_iff] at hn
    refine hn ⟨b, st⟩ (List.mem_filterMap.mpr ⟨_, h, ?_⟩) (by simp)
    unfold indexEvent
    rw [hk]
    rfl

theorem lastBin_mem {m : ℕ} {pre : List Event} {st : Stage} {a : ℕ}
    (h : Spec.lastBin st (indexEvents m pre) = some a) : ∃ x ∈ pre, x.pass = a := by
  unfold Spec.lastBin at h
  rw [Option.map_eq_some_iff] at h
  obtain ⟨x, hx, hxa⟩ := h
  have hm := (List.mem_filter.mp (List.mem_of_getLast? hx)).1
  obtain ⟨y, hy, hyx⟩ := List.mem_filterMap.mp hm
  unfold indexEvent at hyx
  rw [Option.map_eq_some_iff] at hyx
  obtain ⟨st, -, rfl⟩ := hyx
  exact ⟨y, hy, hxa⟩

theorem event_fails (F : Fits L total) (D : strict → ∀ b, 1 ≤ b → b ≤ L.numBins → Defined L P b)
    {post : List Event} (hI : Interleaved (L.incl.length + 29) 1 L.numBins thr (pre ++ e :: post))
    (I : Inv L P total thr pre c) (he : e.at_ = L.incl.length + 29)
    (hp : Spec.lastBin .setIndex1 (indexEvents L.incl.length pre) ≠
      Spec.lastBin .setIndex2 (indexEvents L.incl.length pre)) :
    (partRoutine L total).loop.event strict thr e c = none := by
  have hmem : e ∈ allEvents (L.incl.length + 29) 1 L.numBins := (mem_interleaved hI e).mp (by simp)
  obtain ⟨hb1, hb2, hk⟩ := mem_allEvents.mp hmem
  have hb3 : e.pass ≤ L.numBins := by omega
  have C : Ctx L P e.pass total strict (c.view partPriv (thr e.pass)) :=
    ⟨inputs_view I.inputs _, I.typed _, hb1, hb3, F.size, F.cond, fun h => D h _ hb1 hb3⟩
  rcases interleaved_before hI with h0 | hlast
  · omega
  have K26 : Known L P e.pass 26 (c.view partPriv (thr e.pass)) := known_more (by omega) (I.known _ _ _ hlast) 26
  have hpe : (⟨e.pass, L.incl.length + 28⟩ : Event) ∈ pre := by
    have := (lastOf_mem hlast).1
    have he : e.at_ - 1 = L.incl.length + 28 := by omega
    rwa [he] at this
  obtain ⟨a2, ha2⟩ := lastBin_some (st := .setIndex2) (m := L.incl.length) (by
    unfold stageOf; rw [if_neg (by omega), if_pos rfl]) hpe
  -- `index1` was set before `index2`
  have hpe1 : (⟨e.pass, L.incl.length + 27⟩ : Event) ∈ pre := by
    obtain ⟨p1, p2, hp12⟩ := List.append_of_mem hpe
    have hI' := hI
    rw [hp12, List.append_assoc, List.cons_append] at hI'
    rcases interleaved_before hI' with h | h
    · simp only at h; omega
    · have := (lastOf_mem h).1
      rw [hp12]
      exact List.mem_append_left _ this
  obtain ⟨a1, ha1⟩ := lastBin_some (st := .setIndex1) (m := L.incl.length) (by
    unfold stageOf; rw [if_pos rfl]) hpe1
  obtain ⟨x, hxp, hxa⟩ := lastBin_mem ha1
  have hxm := mem_allEvents.mp ((mem_interleaved hI x).mp (by simp [hxp]))
  obtain ⟨d, hd, -⟩ := I.slices
  obtain ⟨s, hs⟩ : ∃ s, partBody2[2]? = some s := ⟨_, rfl⟩
  have hstep := step_write_none C K26 hs ((view_shared c partPriv (thr e.pass) (by decide)).trans (I.indices.1 a1 ha1))
    ((view_shared c partPriv (thr e.pass) (by decide)).trans (I.indices.2 a2 ha2)) (by omega)
    (by rintro rfl; exact hp (ha1.trans ha2.symm)) ((view_shared c partPriv (thr e.pass) (by decide)).trans hd)
  have hbody := body_last L 2
  rw [← he] at hbody
  unfold Loop.event
  rw [if_neg (by omega)]
  show ((partBody L)[e.at_ - 1]?).bind (fun s => (s.step strict (c.view partPriv (thr e.pass))).map
    (fun v => c.put partPriv (thr e.pass) s.target.name v)) = _
  rw [hbody, hs, Option.bind_some, hstep]
  rfl

/-- Writes see indices of one bin. -/
def Paired (ev : List Aerosol.Event) : Prop :=
  ∀ pre b post, ev = pre ++ ⟨b, .writeSlice⟩ :: post →
    Spec.lastBin .setIndex1 pre = Spec.lastBin .setIndex2 pre

theorem run_ok (F : Fits L total) (D : strict → ∀ b, 1 ≤ b → b ≤ L.numBins → Defined L P b) {post : List Event}
    (hI : Interleaved (L.incl.length + 29) 1 L.numBins thr (pre ++ post)) (I : Inv L P total thr pre c)
    (hp : Paired (indexEvents L.incl.length (pre ++ post))) :
    ∃ c', (partRoutine L total).loop.run strict thr post c = some c' ∧ Inv L P total thr (pre ++ post) c' := by
  induction post generalizing pre c with
  | nil => exact ⟨c, rfl, by rwa [List.append_nil]⟩
  | cons e post ih =>
    obtain ⟨c', h1, h2⟩ := event_ok F D hI I (fun he => by
      refine hp _ e.pass (indexEvents L.incl.length post) ?_
      unfold indexEvents
      rw [List.filterMap_append, List.filterMap_cons]
      have : indexEvent L.incl.length e = some ⟨e.pass, .writeSlice⟩ := by
        unfold indexEvent stageOf
        rw [if_neg (by omega), if_neg (by omega), if_pos he]
        rfl
      rw [this])
    have hap : pre ++ e :: post = (pre ++ [e]) ++ post := by simp
    rw [hap] at hI hp ⊢
    obtain ⟨c'', h3, h4⟩ := ih hI h2 hp
    refine ⟨c'', ?_, h4⟩
    show ((partRoutine L total).loop.event strict thr e c).bind _ = _
    rw [h1, Option.bind_some]
    exact h3

/-- A write that sees indices of different bins. -/
theorem run_fails (F : Fits L total) (D : strict → ∀ b, 1 ≤ b → b ≤ L.numBins → Defined L P b) {post : List Event}
    (hI : Interleaved (L.incl.length + 29) 1 L.numBins thr (pre ++ post)) (I : Inv L P total thr pre c)
    (hp : ∃ p e q, post = p ++ e :: q ∧ e.at_ = L.incl.length + 29 ∧
      Spec.lastBin .setIndex1 (indexEvents L.incl.length (pre ++ p)) ≠
        Spec.lastBin .setIndex2 (indexEvents L.incl.length (pre ++ p))) :
    (partRoutine L total).loop.run strict thr post c = none := by
  induction post generalizing pre c with
  | nil =>
    obtain ⟨p, e, q, h, -⟩ := hp
    simp at h
  | cons e post ih =>
    show ((partRoutine L total).loop.event strict thr e c).bind _ = _
    by_cases hbad : e.at_ = L.incl.length + 29 ∧ Spec.lastBin .setIndex1 (indexEvents L.incl.length pre) ≠
        Spec.lastBin .setIndex2 (indexEvents L.incl.length pre)
    · rw [event_fails F D hI I hbad.1 hbad.2]
      rfl
    · obtain ⟨c', h1, h2⟩ := event_ok F D hI I (fun he => by
        by_contra h
        exact hbad ⟨he, h⟩)
      rw [h1, Option.bind_some]
      have hap : pre ++ e :: post = (pre ++ [e]) ++ post := by simp
      rw [hap] at hI
      refine ih hI h2 ?_
      obtain ⟨p, x, q, hpost, hx, hne⟩ := hp
      cases p with
      | nil =>
        simp only [List.nil_append, List.cons.injEq] at hpost
        obtain ⟨rfl, -⟩ := hpost
        rw [List.append_nil] at hne
        exact absurd ⟨hx, hne⟩ hbad
      | cons y p =>
        simp only [List.cons_append, List.cons.injEq] at hpost
        obtain ⟨rfl, rfl⟩ := hpost
        exact ⟨p, x, q, rfl, hx, by simpa using hne⟩

/-- An order that is not `Paired` has such a write. -/
theorem not_paired {m : ℕ} {tr : List Event} (h : ¬ Paired (indexEvents m tr)) :
    ∃ p e q, tr = p ++ e :: q ∧ e.at_ = m + 29 ∧
      Spec.lastBin .setIndex1 (indexEvents m p) ≠ Spec.lastBin .setIndex2 (indexEvents m p) := by
  unfold Paired at h
  push Not at h
  obtain ⟨pre, b, post, he, hne⟩ := h
  unfold indexEvents at he
  rw [List.filterMap_eq_append_iff] at he
  obtain ⟨l1, l2, rfl, h1, h2⟩ := he
  rw [List.filterMap_eq_cons_iff] at h2
  obtain ⟨l3, e, l4, rfl, h3, h4, -⟩ := h2
  refine ⟨l1 ++ l3, e, l4, by simp, ?_, ?_⟩
  · unfold indexEvent at h4
    rw [Option.map_eq_some_iff] at h4
    obtain ⟨st, hst, hh⟩ := h4
    cases hh
    unfold stageOf at hst
    split at hst
    · cases hst
    · split at hst
      · cases hst
      · split at hst
        · assumption
        · cases hst
  · have : indexEvents m (l1 ++ l3) = pre := by
      unfold indexEvents
      rw [List.filterMap_append, h1, List.filterMap_eq_nil_iff.mpr h3, List.append_nil]
    rwa [this]

end Inv

end Ft
end PyBox
