import Verif.Aerosol.Sizes
import Verif.Props.Partition

/-!
# The initial size distribution (C44) and the initial particles (C53, C54)
-/

namespace PyBox

open Aerosol

namespace Spec

/-- C44 for one result: `n` bins; non-negative numbers that add up to `total`;
increasing sizes from `lower` to `upper`. -/
structure GoodSizes (n : ℕ) (total lower upper : ℝ) (res : List ℝ × List ℝ) : Prop where
  lenN : res.1.length = n
  lenX : res.2.length = n
  nonneg : ∀ v ∈ res.1, 0 ≤ v
  sum : res.1.sum = total
  increasing : res.2.Pairwise (· < ·)
  first : res.2.head? = some lower
  last : res.2.getLast? = some upper

/-- C44 in full. -/
def C44_Statement : Prop :=
  ∀ (n : ℕ) (total mean std lower upper : ℝ), 0 < n → 0 < total → 0 < mean → 0 < std →
    0 < lower → lower < upper →
    ∃ res, lognormal n total mean std lower upper = some res ∧ GoodSizes n total lower upper res

end Spec

open Spec

/-- The density where it is defined. -/
noncomputable def pdfValue (s scale x : ℝ) : ℝ :=
  1 / (s * x * Real.sqrt (2 * Real.pi)) * Real.exp (-(Real.log (x / scale)) ^ 2 / (2 * s ^ 2))

theorem pdfValue_pos {s scale x : ℝ} (hs : 0 < s) (hx : 0 < x) : 0 < pdfValue s scale x := by
  unfold pdfValue
  have : 0 < Real.sqrt (2 * Real.pi) := Real.sqrt_pos.2 (by have := Real.pi_pos; positivity)
  positivity

theorem lognormPdf_eq {s scale x : ℝ} (hs : 0 < s) (hsc : 0 < scale) (hx : 0 < x) :
    lognormPdf s scale x = some (pdfValue s scale x) := by
  unfold lognormPdf
  rw [if_neg (by rintro (h | h) <;> linarith), if_neg (by linarith)]
  rfl

theorem mapM_some {α β : Type} (f : α → Option β) (g : α → β) (l : List α)
    (h : ∀ x ∈ l, f x = some (g x)) : l.mapM f = some (l.map g) := by
  induction l with
  | nil => rfl
  | cons a l ih =>
    rw [List.mapM_cons, h a (by simp), ih (fun x hx => h x (by simp [hx]))]
    rfl

/-- The sizes. -/
noncomputable def sizesOf (lower upper : ℝ) (n : ℕ) : List ℝ :=
  (linspace (Real.log lower) (Real.log upper) n).map Real.exp

theorem lognormal_eq (n : ℕ) (total mean std lower upper : ℝ) (hs : 1 < std) :
    lognormal n total mean std lower upper
      = some (((sizesOf lower upper n).map (pdfValue (Real.log std) (Real.exp (Real.log mean)))).map
          (fun p => p / ((sizesOf lower upper n).map
            (pdfValue (Real.log std) (Real.exp (Real.log mean)))).sum * total),
          sizesOf lower upper n) := by
  unfold lognormal
  have hx : ∀ x ∈ sizesOf lower upper n, 0 < x := by
    intro x hx
    obtain ⟨y, -, rfl⟩ := List.mem_map.1 hx
    exact Real.exp_pos y
  have := mapM_some (lognormPdf (Real.log std) (Real.exp (Real.log mean))) _ _
    (fun x h => lognormPdf_eq (Real.log_pos hs) (Real.exp_pos _) (hx x h))
  change (Option.bind (List.mapM _ (sizesOf lower upper n)) _) = _
  rw [this]
  rfl

theorem linspace_length (a b : ℝ) (n : ℕ) : (linspace a b n).length = n := by simp [linspace]

theorem linspace_get (a b : ℝ) (n k : ℕ) (hn : 1 < n) (hk : k < n) :
    (linspace a b n)[k]? = some (a + (k : ℝ) / ((n : ℝ) - 1) * (b - a)) := by
  have hn' : (n : ℝ) - 1 ≠ 0 := by
    have : (1 : ℝ) < n := by exact_mod_cast hn
    linarith
  unfold linspace
  rw [List.getElem?_map, List.getElem?_range hk]
  simp only [Option.map_some, Option.some.injEq]
  by_cases h : k + 1 = n
  · rw [if_pos ⟨hn, h⟩]
    have : (k : ℝ) = (n : ℝ) - 1 := by
      have : ((k + 1 : ℕ) : ℝ) = (n : ℝ) := by rw [h]
      push_cast at this
      linarith
    rw [this, div_self hn']
    ring
  · rw [if_neg (fun h' => h h'.2)]
    ring

/-- C44, as far as it holds: at least two bins and a geometric standard
deviation above 1.  Missing: see `C44_exact`. -/
theorem C44_sizes_partial (n : ℕ) (total mean std lower upper : ℝ) (hn : 2 ≤ n)
    (ht : 0 ≤ total) (hs : 1 < std) (hl : 0 < lower) (hu : lower < upper) :
    ∃ res, lognormal n total mean std lower upper = some res ∧
      GoodSizes n total lower upper res := by
  refine ⟨_, lognormal_eq n total mean std lower upper hs, ?_⟩
  have hu0 := hl.trans hu
  have hlog : Real.log lower < Real.log upper := Real.log_lt_log hl hu
  have hget : ∀ k, k < n → (sizesOf lower upper n)[k]?
      = some (Real.exp (Real.log lower + (k : ℝ) / ((n : ℝ) - 1) *
          (Real.log upper - Real.log lower))) := by
    intro k hk
    unfold sizesOf
    rw [List.getElem?_map, linspace_get _ _ _ _ (by omega) hk]
    rfl
  have hlen : (sizesOf lower upper n).length = n := by simp [sizesOf, linspace_length]
  have hn1 : (0 : ℝ) < (n : ℝ) - 1 := by
    have : (2 : ℝ) ≤ n := by exact_mod_cast hn
    linarith
  set g := pdfValue (Real.log std) (Real.exp (Real.log mean)) with hg
  have hpos : ∀ v ∈ (sizesOf lower upper n).map g, 0 < v := by
    intro v hv
    obtain ⟨x, hx, rfl⟩ := List.mem_map.1 hv
    obtain ⟨y, -, rfl⟩ := List.mem_map.1 hx
    exact pdfValue_pos (Real.log_pos hs) (Real.exp_pos _)
  have hsum : 0 < ((sizesOf lower upper n).map g).sum := by
    apply List.sum_pos _ hpos
    intro h
    have := congrArg List.length h
    rw [List.length_map, hlen] at this
    simp at this
    omega
  refine ⟨?_, hlen, ?_, ?_, ?_, ?_, ?_⟩
  · simp [hlen]
  · intro v hv
    obtain ⟨p, hp, rfl⟩ := List.mem_map.1 hv
    exact mul_nonneg (div_nonneg (hpos p hp).le hsum.le) ht
  · show List.sum (List.map (fun p => p / ((sizesOf lower upper n).map g).sum * total)
      ((sizesOf lower upper n).map g)) = total
    have e : (fun p => p / ((sizesOf lower upper n).map g).sum * total)
        = (fun p => p * (total / ((sizesOf lower upper n).map g).sum)) := by
      funext p; ring
    rw [e, List.sum_map_mul_right, List.map_id']
    field_simp
  · rw [List.pairwise_iff_getElem]
    intro i j hi hj hij
    rw [hlen] at hi hj
    have h1 := hget i hi
    have h2 := hget j hj
    rw [List.getElem?_eq_getElem (by rw [hlen]; exact hi)] at h1
    rw [List.getElem?_eq_getElem (by rw [hlen]; exact hj)] at h2
    rw [Option.some.injEq] at h1 h2
    show (sizesOf lower upper n)[i] < (sizesOf lower upper n)[j]
    rw [h1, h2]
    apply Real.exp_lt_exp.2
    have : (i : ℝ) < j := by exact_mod_cast hij
    have : (i : ℝ) / ((n : ℝ) - 1) < (j : ℝ) / ((n : ℝ) - 1) := div_lt_div_of_pos_right this hn1
    have := mul_lt_mul_of_pos_right this (sub_pos.2 hlog)
    linarith
  · show (sizesOf lower upper n).head? = some lower
    rw [List.head?_eq_getElem?, hget 0 (by omega)]
    simp [Real.exp_log hl]
  · show (sizesOf lower upper n).getLast? = some upper
    rw [List.getLast?_eq_getElem?, hlen, hget (n - 1) (by omega)]
    have : ((n - 1 : ℕ) : ℝ) = (n : ℝ) - 1 := by
      rw [Nat.cast_sub (by omega)]; simp
    rw [this, div_self hn1.ne']
    simp [Real.exp_log hu0]

/-- C44: with a geometric standard deviation up to 1 the numbers are `nan`. -/
theorem C44_narrow (n : ℕ) (total mean std lower upper : ℝ) (hn : 0 < n) (hs : 0 < std)
    (hs1 : std ≤ 1) : lognormal n total mean std lower upper = none := by
  unfold lognormal
  have hlen : (sizesOf lower upper n).length = n := by simp [sizesOf, linspace_length]
  change (Option.bind (List.mapM _ (sizesOf lower upper n)) _) = _
  cases hx : sizesOf lower upper n with
  | nil => rw [hx] at hlen; simp at hlen; omega
  | cons a l =>
    have : lognormPdf (Real.log std) (Real.exp (Real.log mean)) a = none := by
      unfold lognormPdf
      rw [if_pos (Or.inl (Real.log_nonpos hs.le hs1))]
    rw [List.mapM_cons, this]
    rfl

/-- C44: with one bin its size is the lower limit. -/
theorem C44_one_bin (total mean std lower upper : ℝ) (hs : 1 < std) (hl : 0 < lower) :
    ∃ N, lognormal 1 total mean std lower upper = some (N, [lower]) := by
  have : sizesOf lower upper 1 = [lower] := by
    simp [sizesOf, linspace, Real.exp_log hl]
  have h := lognormal_eq 1 total mean std lower upper hs
  rw [this] at h
  exact ⟨_, h⟩

/-- C44: the exact condition. -/
theorem C44_exact (n : ℕ) (total mean std lower upper : ℝ) (hn : 0 < n) (ht : 0 ≤ total)
    (hs : 0 < std) (hl : 0 < lower) (hu : lower < upper) :
    (∃ res, lognormal n total mean std lower upper = some res ∧
      GoodSizes n total lower upper res) ↔ 1 < std ∧ 2 ≤ n := by
  constructor
  · rintro ⟨res, h1, h2⟩
    have hs1 : 1 < std := by
      by_contra h
      rw [C44_narrow n total mean std lower upper hn hs (not_lt.1 h)] at h1
      cases h1
    refine ⟨hs1, ?_⟩
    by_contra h
    have : n = 1 := by omega
    subst this
    obtain ⟨N, hN⟩ := C44_one_bin total mean std lower upper hs1 hl
    rw [hN] at h1
    cases h1
    have := h2.last
    simp only [List.getLast?_singleton, Option.some.injEq] at this
    linarith
  · rintro ⟨h1, h2⟩
    exact C44_sizes_partial n total mean std lower upper h2 ht h1 hl hu

/-- C44: the sizes are spaced geometrically and the numbers follow the lognormal shape with the
given median and geometric standard deviation: `N x exp(ln²(x/mean)/(2 ln² std))` is the same in all bins. -/
theorem C44_shape (n : ℕ) (total mean std lower upper : ℝ) (hn : 2 ≤ n) (hm : 0 < mean)
    (hs : 1 < std) (hl : 0 < lower) (hu : lower < upper) {N x : List ℝ}
    (h : lognormal n total mean std lower upper = some (N, x)) :
    (∀ k, k < n → x[k]? = some (lower * (upper / lower) ^ ((k : ℝ) / ((n : ℝ) - 1)))) ∧
    ∃ c : ℝ, ∀ (k : ℕ) (a v : ℝ), N[k]? = some a → x[k]? = some v →
      a * v * Real.exp (Real.log (v / mean) ^ 2 / (2 * Real.log std ^ 2)) = c := by
  rw [lognormal_eq n total mean std lower upper hs] at h
  injection h with h
  injection h with h1 h2
  have hu0 := hl.trans hu
  have hsig := Real.log_pos hs
  constructor
  · intro k hk
    rw [← h2]
    unfold sizesOf
    rw [List.getElem?_map, linspace_get _ _ _ _ (by omega) hk, Option.map_some]
    congr 1
    rw [Real.exp_add, Real.exp_log hl, Real.rpow_def_of_pos (div_pos hu0 hl),
      Real.log_div hu0.ne' hl.ne', mul_comm (Real.log upper - Real.log lower)]
  · refine ⟨1 / (Real.log std * Real.sqrt (2 * Real.pi)) / ((sizesOf lower upper n).map
      (pdfValue (Real.log std) (Real.exp (Real.log mean)))).sum * total, fun k a v ha hv => ?_⟩
    rw [← h1, List.getElem?_map, List.getElem?_map, h2, hv] at ha
    simp only [Option.map_some, Option.some.injEq] at ha
    have hv0 : 0 < v := by
      rw [← h2] at hv
      obtain ⟨y, -, rfl⟩ := List.mem_map.1 (List.mem_of_getElem? hv)
      exact Real.exp_pos y
    rw [← ha, ← h2, Real.exp_log hm]
    unfold pdfValue
    generalize (List.map (fun x => 1 / (Real.log std * x * Real.sqrt (2 * Real.pi)) *
      Real.exp (-Real.log (x / mean) ^ 2 / (2 * Real.log std ^ 2))) (sizesOf lower upper n)).sum = S
    have hpi : (0 : ℝ) < Real.sqrt (2 * Real.pi) := Real.sqrt_pos.2 (by positivity)
    have hE : Real.exp (-Real.log (v / mean) ^ 2 / (2 * Real.log std ^ 2)) *
        Real.exp (Real.log (v / mean) ^ 2 / (2 * Real.log std ^ 2)) = 1 := by
      rw [← Real.exp_add, neg_div, neg_add_cancel, Real.exp_zero]
    generalize Real.exp (-Real.log (v / mean) ^ 2 / (2 * Real.log std ^ 2)) = A at *
    generalize Real.exp (Real.log (v / mean) ^ 2 / (2 * Real.log std ^ 2)) = B at *
    calc 1 / (Real.log std * v * Real.sqrt (2 * Real.pi)) * A / S * total * v * B
        = (v / v) * (A * B) * (1 / (Real.log std * Real.sqrt (2 * Real.pi)) / S * total) := by
          field_simp
      _ = _ := by rw [hE, div_self hv0.ne']; ring

/-- The hypotheses hold for the values of the driver. -/
example : 2 ≤ 16 ∧ (0 : ℝ) < 0.2 ∧ (1 : ℝ) < 2.2 ∧ (0 : ℝ) < 0.01 ∧ (0.01 : ℝ) < 1 ∧
    ∃ r, lognormal 16 100 0.2 2.2 0.01 1 = some r :=
  ⟨by norm_num, by norm_num, by norm_num, by norm_num, by norm_num,
    ⟨_, lognormal_eq 16 100 0.2 2.2 0.01 1 (by norm_num)⟩⟩

/-- C44 does not hold for all positive parameters. -/
theorem C44_false : ¬ C44_Statement := by
  intro h
  have := (C44_exact 16 100 0.2 1 0.01 1 (by norm_num) (by norm_num) (by norm_num) (by norm_num)
    (by norm_num)).1 (h 16 100 0.2 1 0.01 1 (by norm_num) (by norm_num) (by norm_num) (by norm_num)
    (by norm_num) (by norm_num))
  exact lt_irrefl _ this.1

/-- The parameters of the driver. -/
example : 2 ≤ 16 ∧ (0 : ℝ) ≤ 100 ∧ (1 : ℝ) < 2.2 ∧ (0 : ℝ) < 0.01 ∧ (0.01 : ℝ) < 1 := by norm_num

/-! ## C53: the initial water -/

theorem initialCond_aux (nc nb k : ℕ) (hnc : 0 < nc) (hk : k ≤ nb) (ycore : ℕ → ℝ)
    (diss rh : ℝ) (hrh : rh ≠ 1) :
    ∃ y, (List.range k).foldlM (fun (y : List ℝ) k =>
        if 1 - rh = 0 then (.error .zeroDiv : Except PyErr (List ℝ))
        else
          let i := (nc - 1) + k * nc
          if i < y.length then .ok (y.set i (ycore k * diss * (rh / (1 - rh))))
          else .error .index) (List.replicate (nc * nb) 0) = .ok y ∧
      y.length = nc * nb ∧
      ∀ b j, b < nb → j < nc → y[b * nc + j]? = some
        (if b < k ∧ j + 1 = nc then ycore b * diss * (rh / (1 - rh)) else 0) := by
  induction k with
  | zero =>
    refine ⟨_, rfl, by simp, ?_⟩
    intro b j hb hj
    have := slot_lt hb hj
    rw [List.getElem?_replicate, if_pos (by rw [Nat.mul_comm nc nb]; exact this)]
    simp
  | succ k ih =>
    obtain ⟨y, h1, h2, h3⟩ := ih (by omega)
    have hne : ¬ (1 - rh = 0) := fun h => hrh (by linarith)
    have hlt : nc - 1 + k * nc < y.length := by
      have := slot_lt (nc := nc) (b := k) (n := nb) (j := nc - 1) (by omega) (by omega)
      rw [h2, Nat.mul_comm nc nb]; omega
    refine ⟨y.set (nc - 1 + k * nc) (ycore k * diss * (rh / (1 - rh))), ?_, by simp [h2], ?_⟩
    · rw [List.range_succ, List.foldlM_append, h1]
      simp only [bind, Except.bind, List.foldlM_cons, List.foldlM_nil, if_neg hne, if_pos hlt]
      rfl
    · intro b j hb hj
      rw [List.getElem?_set]
      by_cases he : nc - 1 + k * nc = b * nc + j
      · have := slot_inj (nc := nc) (b := k) (b' := b) (j := nc - 1) (j' := j) (by omega) hj
          (by omega)
        obtain ⟨rfl, rfl⟩ := this
        rw [if_pos he, if_pos hlt, if_pos ⟨by omega, by omega⟩]
      · rw [if_neg he, h3 b j hb hj]
        have : (b < k ∧ j + 1 = nc) ↔ (b < k + 1 ∧ j + 1 = nc) := by
          constructor
          · rintro ⟨h, h'⟩; exact ⟨by omega, h'⟩
          · rintro ⟨h, h'⟩
            refine ⟨?_, h'⟩
            by_contra hb'
            have : b = k := by omega
            subst this
            apply he
            omega
        simp only [this]

/-- C53: water is put into the last entry of every bin and nowhere else. -/
theorem C53_water_slots (nc nb : ℕ) (hnc : 0 < nc) (ycore : ℕ → ℝ) (diss rh : ℝ) (hrh : rh ≠ 1) :
    ∃ y, initialCond nc nb ycore diss rh = .ok y ∧ y.length = nc * nb ∧
      ∀ b j, b < nb → j < nc → y[b * nc + j]? = some
        (if j + 1 = nc then ycore b * diss * (rh / (1 - rh)) else 0) := by
  obtain ⟨y, h1, h2, h3⟩ := initialCond_aux nc nb nb hnc le_rfl ycore diss rh hrh
  refine ⟨y, ?_, h2, ?_⟩
  · exact h1
  · intro b j hb hj
    rw [h3 b j hb hj]
    simp [hb]

/-- C53: saturated air has no initial state (division by zero). -/
theorem C53_saturated (nc nb : ℕ) (hnb : 0 < nb) (ycore : ℕ → ℝ) (diss : ℝ) :
    initialCond nc nb ycore diss 1 = .error .zeroDiv := by
  obtain ⟨n, rfl⟩ : ∃ n, nb = n + 1 := ⟨nb - 1, by omega⟩
  unfold initialCond
  rw [List.range_succ_eq_map, List.foldlM_cons]
  simp only [sub_self, if_true]
  rfl

/-- C53: in the initial state the routine finds the relative humidity as water
activity, in every bin. -/
theorem C53_activity (L : Layout) (P : PartInput) (y : List ℝ) (rh : ℝ)
    (hrh : rh < 1) (hnc : 0 < L.numCond)
    (hy : initialCond L.numCond L.numBins (fun b => P.ycore (b + 1)) P.coreDiss rh = .ok y)
    (hP : ∀ k, k < L.numCond * L.numBins → P.y (L.numSpecies + k + 1) = y.getD k 0)
    (b : ℕ) (hb : b < L.numBins) (hc : 0 < P.ycore (b + 1) * P.coreDiss) :
    waterActivity L P (b + 1) = rh := by
  obtain ⟨y', h1, h2, h3⟩ := C53_water_slots L.numCond L.numBins hnc (fun b => P.ycore (b + 1))
    P.coreDiss rh hrh.ne
  rw [hy] at h1
  cases h1
  have hconc : ∀ j, j < L.numCond → conc L P b j = if j + 1 = L.numCond then
      P.ycore (b + 1) * P.coreDiss * (rh / (1 - rh)) else 0 := by
    intro j hj
    have hlt := slot_lt hb hj
    have := hP (b * L.numCond + j) (by rw [Nat.mul_comm L.numCond L.numBins]; exact hlt)
    unfold conc
    rw [show L.numSpecies + b * L.numCond + j + 1 = L.numSpecies + (b * L.numCond + j) + 1 by ring,
      this, List.getD_eq_getElem?_getD, h3 b j hb hj]
    rfl
  have hw : tempArray L P (b + 1) L.numCond = P.ycore (b + 1) * P.coreDiss * (rh / (1 - rh)) := by
    obtain ⟨n, hn⟩ : ∃ n, L.numCond = n + 1 := ⟨L.numCond - 1, by omega⟩
    have := tempArray_eq L P b n
    rw [hconc n (by omega), if_pos hn.symm] at this
    rw [hn]; exact this
  have hs : ∑ k ∈ Finset.range L.numCond, conc L P b k
      = P.ycore (b + 1) * P.coreDiss * (rh / (1 - rh)) := by
    rw [Finset.sum_congr rfl (fun j hj => hconc j (Finset.mem_range.1 hj))]
    obtain ⟨n, hn⟩ : ∃ n, L.numCond = n + 1 := ⟨L.numCond - 1, by omega⟩
    rw [hn, Finset.sum_range_succ, Finset.sum_eq_zero, zero_add, if_pos rfl]
    intro j hj
    have := Finset.mem_range.1 hj
    rw [if_neg (by omega)]
  unfold waterActivity
  rw [hw, totalMoles_eq, hs]
  have h1 : 0 < 1 - rh := by linarith
  have h2 : P.ycore (b + 1) * P.coreDiss ≠ 0 := hc.ne'
  set c := P.ycore (b + 1) * P.coreDiss
  have h3 : c * (rh / (1 - rh)) + c = c * (1 / (1 - rh)) := by field_simp; ring
  rw [h3]
  field_simp

/-- A humid bin as the driver prepares it: one condensing species and water. -/
example : ∃ (L : Layout) (P : PartInput) (y : List ℝ), 0 < L.numCond ∧ 0 < L.numBins ∧
    initialCond L.numCond L.numBins (fun b => P.ycore (b + 1)) P.coreDiss (1 / 2) = .ok y ∧
    (∀ k, k < L.numCond * L.numBins → P.y (L.numSpecies + k + 1) = y.getD k 0) ∧
    0 < P.ycore 1 * P.coreDiss := by
  obtain ⟨y, h1, -, -⟩ := C53_water_slots 2 1 (by norm_num) (fun _ => 1) 3 (1 / 2) (by norm_num)
  refine ⟨⟨1, 2, 2, sampleLayout.incl⟩, { sampleInput with
      ycore := fun _ => 1, coreDiss := 3, y := fun n => y.getD (n - 3) 0 }, y,
    by norm_num, by norm_num, h1, ?_, by norm_num⟩
  intro k _
  show y.getD (2 + k + 1 - 3) 0 = _
  rw [show 2 + k + 1 - 3 = k by omega]

/-! ## C54: the initial size -/

/-- C54: without condensed matter the routine returns the initial radius times
the cube root of the ratio of the two values of pi in use. -/
theorem C54_dry_size (L : Layout) (P : PartInput) (b : ℕ) (x coreMw : ℝ) (hx : 0 < x)
    (hmw : 0 < coreMw) (hna : 0 < P.na) (hN : 0 < P.nPerBin (b + 1))
    (hd : 0 < P.coreDensity (b + 1))
    (hdry : ∀ j < L.numCond, conc L P b j = 0)
    (hcore : P.ycore (b + 1)
      = coreMolecules x (P.coreDensity (b + 1)) coreMw P.na (P.nPerBin (b + 1)))
    (hmass : P.coreMass (b + 1) = P.ycore (b + 1) / P.na * coreMw) :
    sizeArray L P (b + 1) = x * 10 ^ (-6 : ℤ) * Real.rpow (Real.pi / fPi) (1 / 3) := by
  have hpi := Real.pi_pos
  have hfpi := fPi_pos
  have hm0 : ∀ j ∈ Finset.range L.numCond, mass L P b j = 0 := by
    intro j hj; unfold mass; rw [hdry j (Finset.mem_range.1 hj)]; simp
  have hM : P.coreMass (b + 1)
      = 4 / 3 * Real.pi * (x * 0.000001) ^ 3 * P.coreDensity (b + 1) * P.nPerBin (b + 1) * 1000 := by
    rw [hmass, hcore, coreMolecules, Real.rpow_eq_pow,
      show (3 : ℝ) = ((3 : ℕ) : ℝ) by norm_num, Real.rpow_natCast]
    field_simp
    norm_num
  have hMpos : 0 < P.coreMass (b + 1) := by rw [hM]; positivity
  have hbm : binMass L P b = P.coreMass (b + 1) := by
    unfold binMass; rw [Finset.sum_eq_zero hm0, zero_add]
  have hbv : binVolume L P b = P.coreMass (b + 1) / P.coreDensity (b + 1) := by
    unfold binVolume
    rw [Finset.sum_eq_zero (fun j hj => by rw [hm0 j hj, zero_div]), zero_add]
  have harg : (3 * (totalMass L P (b + 1) * 1000 / (P.nPerBin (b + 1) * 1000000))) /
      (4 * fPi * density L P (b + 1)) = (x * 0.000001) ^ 3 * (Real.pi / fPi) := by
    rw [totalMass_eq, density_eq, hbm, hbv, div_div_cancel₀ hMpos.ne', hM]
    field_simp
    norm_num
  unfold sizeArray
  rw [harg]
  have hx6 : (0 : ℝ) ≤ (x * 0.000001) ^ 3 := by positivity
  have e1 := Real.mul_rpow hx6 (div_pos hpi hfpi).le (z := 1 / 3)
  rw [Real.rpow_eq_pow, Real.rpow_eq_pow, e1]
  congr 1
  rw [show (1 / 3 : ℝ) = ((3 : ℕ) : ℝ)⁻¹ by norm_num, Real.pow_rpow_inv_natCast (by positivity)
    (by norm_num)]
  norm_num

/-- C54: that is the initial radius up to one part in a hundred million. -/
theorem C54_close (L : Layout) (P : PartInput) (b : ℕ) (x coreMw : ℝ) (hx : 0 < x)
    (hmw : 0 < coreMw) (hna : 0 < P.na) (hN : 0 < P.nPerBin (b + 1))
    (hd : 0 < P.coreDensity (b + 1))
    (hdry : ∀ j < L.numCond, conc L P b j = 0)
    (hcore : P.ycore (b + 1)
      = coreMolecules x (P.coreDensity (b + 1)) coreMw P.na (P.nPerBin (b + 1)))
    (hmass : P.coreMass (b + 1) = P.ycore (b + 1) / P.na * coreMw) :
    |sizeArray L P (b + 1) - x * 10 ^ (-6 : ℤ)| ≤ 10 ^ (-8 : ℤ) * (x * 10 ^ (-6 : ℤ)) := by
  rw [C54_dry_size L P b x coreMw hx hmw hna hN hd hdry hcore hmass]
  have hpi := Real.pi_pos
  have hfpi := fPi_pos
  set q := Real.rpow (Real.pi / fPi) (1 / 3) with hq
  have hratio : Real.pi / fPi < 1 := by
    rw [div_lt_one hfpi, fPi]
    have := Real.pi_lt_d20
    linarith
  have h0 : (0 : ℝ) ≤ Real.pi / fPi := (div_pos hpi hfpi).le
  have hq3 : q ^ 3 = Real.pi / fPi := by
    rw [hq, Real.rpow_eq_pow, show (1 / 3 : ℝ) = ((3 : ℕ) : ℝ)⁻¹ by norm_num,
      Real.rpow_inv_natCast_pow h0 (by norm_num)]
  have hqpos : 0 < q := Real.rpow_pos_of_pos (div_pos hpi hfpi) _
  have hq1 : q ≤ 1 := by
    by_contra h
    have : 1 < q ^ 3 := one_lt_pow₀ (not_le.1 h) (by norm_num)
    linarith
  have hq2 : 1 - 10 ^ (-8 : ℤ) ≤ q := by
    by_contra h
    have h' := not_le.1 h
    have h3 : q ^ 3 < (1 - 10 ^ (-8 : ℤ)) ^ 3 := pow_lt_pow_left₀ h' hqpos.le (by norm_num)
    rw [hq3, div_lt_iff₀ hfpi, fPi] at h3
    have := Real.pi_gt_d20
    norm_num at h3
    linarith
  have hx6 : 0 < x * (10 : ℝ) ^ (-6 : ℤ) := by positivity
  rw [abs_le]
  constructor <;> nlinarith

/-- A dry bin as the driver prepares it. -/
noncomputable def dryCore : PartInput :=
  { sampleInput with
    y := fun _ => 0
    ycore := fun _ => coreMolecules 2 1 3 1 1
    coreMass := fun _ => coreMolecules 2 1 3 1 1 / 1 * 3 }

example : ∃ (L : Layout) (P : PartInput) (x coreMw : ℝ), 0 < x ∧ 0 < coreMw ∧ 0 < P.na ∧
    0 < P.nPerBin 1 ∧ 0 < P.coreDensity 1 ∧ (∀ j < L.numCond, conc L P 0 j = 0) ∧
    P.ycore 1 = coreMolecules x (P.coreDensity 1) coreMw P.na (P.nPerBin 1) ∧
    P.coreMass 1 = P.ycore 1 / P.na * coreMw :=
  ⟨sampleLayout, dryCore, 2, 3, by norm_num, by norm_num, by norm_num [dryCore, sampleInput],
    by norm_num [dryCore, sampleInput], by norm_num [dryCore, sampleInput], fun _ _ => rfl, rfl, rfl⟩

end PyBox
