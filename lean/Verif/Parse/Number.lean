import Verif.Parse.Text
import Mathlib.Tactic.Ring
import Mathlib.Tactic.NormNum

/-!
# The number pattern of lines 185 and 242
-/

namespace PyBox
namespace Re

theorem runStar_mem (p : Char → Bool) (s : Str) : ∀ ur ∈ runStar p s,
    ur.1 ++ ur.2 = s ∧ ∀ c ∈ ur.1, p c = true := by
  induction s with
  | nil => simp [runStar]
  | cons a s ih =>
    intro ur h
    rw [runStar] at h
    split at h
    · rename_i hp
      rw [List.mem_append, List.mem_map] at h
      rcases h with ⟨vt, hv, rfl⟩ | h
      · obtain ⟨h1, h2⟩ := ih vt hv
        refine ⟨by rw [List.cons_append, h1], ?_⟩
        intro c hc
        rcases List.mem_cons.1 hc with rfl | hc
        · exact hp
        · exact h2 c hc
      · simp only [List.mem_singleton] at h; subst h; simp
    · simp only [List.mem_singleton] at h; subst h; simp

theorem runLazy_mem (p : Char → Bool) (s : Str) : ∀ ur ∈ runLazy p s, ur.1 ++ ur.2 = s := by
  induction s with
  | nil => simp [runLazy]
  | cons a s ih =>
    intro ur h
    rw [runLazy] at h
    split at h
    · rw [List.mem_cons, List.mem_map] at h
      rcases h with rfl | ⟨vt, hv, rfl⟩
      · rfl
      · rw [List.cons_append, ih vt hv]
    · simp only [List.mem_singleton] at h; subst h; simp

theorem runStar_head (p : Char → Bool) (s : Str) : ∃ l,
    runStar p s = (s.takeWhile p, s.dropWhile p) :: l := by
  induction s with
  | nil => exact ⟨[], rfl⟩
  | cons a s ih =>
    obtain ⟨l, hl⟩ := ih
    rw [runStar]
    by_cases h : p a = true
    · simp only [h, if_true, hl]
      exact ⟨l.map (fun ur => (a :: ur.1, ur.2)) ++ [([], a :: s)], by simp [h]⟩
    · simp only [h]
      exact ⟨[], by simp [h]⟩

/-- Every match is a prefix of the text. -/
theorem run_append (r : Re) (s : Str) : ∀ ur ∈ run r s, ur.1 ++ ur.2 = s := by
  induction r generalizing s with
  | eps => simp [run]
  | cls p => cases s with
    | nil => simp [run]
    | cons a s =>
      intro ur h
      rw [run] at h
      split at h
      · simp only [List.mem_singleton] at h; subst h; rfl
      · simp at h
  | seq a b iha ihb =>
    intro ur h
    rw [run, List.mem_flatMap] at h
    obtain ⟨ur1, h1, h2⟩ := h
    rw [List.mem_map] at h2
    obtain ⟨vt, h3, rfl⟩ := h2
    rw [List.append_assoc, ihb _ vt h3, iha _ ur1 h1]
  | alt a b iha ihb =>
    intro ur h
    rw [run, List.mem_append] at h
    rcases h with h | h
    · exact iha _ ur h
    · exact ihb _ ur h
  | star p => intro ur h; rw [run] at h; exact (runStar_mem p s ur h).1
  | lazy p => intro ur h; rw [run] at h; exact runLazy_mem p s ur h

theorem matchAt_append {r : Re} {s u t : Str} (h : matchAt r s = some (u, t)) : u ++ t = s :=
  run_append r s (u, t) (List.mem_of_mem_head? h)

theorem findallFuel_irrel (r : Re) : ∀ (n m : Nat) (s : Str), s.length < n → s.length < m →
    findallFuel r n s = findallFuel r m s := by
  intro n
  induction n with
  | zero => intro m s h; omega
  | succ n ih =>
    intro m s hn hm
    cases m with
    | zero => omega
    | succ m =>
      cases s with
      | nil => rfl
      | cons a s =>
        simp only [List.length_cons] at hn hm
        simp only [findallFuel]
        cases hma : matchAt r (a :: s) with
        | none => exact ih m s (by omega) (by omega)
        | some ut =>
          obtain ⟨u, t⟩ := ut
          dsimp only
          split
          · exact ih m s (by omega) (by omega)
          · rename_i hu
            have hl := congrArg List.length (matchAt_append hma)
            simp only [List.length_append, List.length_cons] at hl
            have : 0 < u.length := List.length_pos_iff.2 hu
            rw [ih m t (by omega) (by omega)]

theorem findall_some {r : Re} {s u t : Str} (h : matchAt r s = some (u, t)) (hu : u ≠ []) :
    findall r s = u :: findall r t := by
  cases s with
  | nil =>
    have := matchAt_append h
    simp only [List.append_eq_nil_iff] at this
    exact absurd this.1 hu
  | cons a s =>
    unfold findall
    conv_lhs => rw [findallFuel]
    rw [h]
    simp only [hu, if_false]
    have hl := congrArg List.length (matchAt_append h)
    simp only [List.length_append, List.length_cons] at hl
    have : 0 < u.length := List.length_pos_iff.2 hu
    rw [findallFuel_irrel r ((a :: s).length) (t.length + 1) t (by simp; omega) (by omega)]

theorem findall_none {r : Re} {a : Char} {s : Str} (h : matchAt r (a :: s) = none) :
    findall r (a :: s) = findall r s := by
  unfold findall
  conv_lhs => rw [findallFuel]
  rw [h]
  rfl

theorem run_plus_mem (p : Char → Bool) (s : Str) : ∀ ur ∈ run (plus p) s,
    ∃ a u, ur.1 = a :: u ∧ p a = true ∧ (∀ c ∈ u, p c = true) ∧ a :: u ++ ur.2 = s := by
  intro ur h
  cases s with
  | nil => simp [plus, run] at h
  | cons a s =>
    simp only [plus, run] at h
    split at h
    · rename_i hp
      simp only [List.flatMap_cons, List.flatMap_nil, List.append_nil, List.mem_map] at h
      obtain ⟨vt, h1, rfl⟩ := h
      obtain ⟨h2, h3⟩ := runStar_mem p s vt h1
      exact ⟨a, vt.1, rfl, hp, h3, by rw [List.cons_append, h2]⟩
    · simp at h

theorem run_plus_head (p : Char → Bool) (a : Char) (s : Str) (h : p a = true) : ∃ l,
    run (plus p) (a :: s) = (a :: s.takeWhile p, s.dropWhile p) :: l := by
  obtain ⟨l, hl⟩ := runStar_head p s
  refine ⟨l.map (fun ur => (a :: ur.1, ur.2)), ?_⟩
  simp [plus, run, h, hl]

/-- The characters that can begin a number. -/
def numStart (c : Char) : Bool := isDigit c || c == '.' || c == '-' || c == '+'

/-- Every match of the number pattern contains a digit and begins with a sign, a dot or a digit. -/
theorem run_number_mem (s : Str) : ∀ ur ∈ run number s,
    (∃ c ∈ ur.1, isDigit c = true) ∧ (∃ a u, ur.1 = a :: u ∧ numStart a = true) := by
  intro ur h
  have hplus : ∀ ur ∈ run (plus isDigit) s,
      (∃ c ∈ ur.1, isDigit c = true) ∧ (∃ a u, ur.1 = a :: u ∧ numStart a = true) := by
    intro ur h
    obtain ⟨a, u, h1, h2, -, -⟩ := run_plus_mem _ _ _ h
    exact ⟨⟨a, by rw [h1]; simp, h2⟩, ⟨a, u, h1, by simp [numStart, h2]⟩⟩
  rw [number, run, List.mem_append] at h
  rcases h with h | h
  · rw [run, List.mem_flatMap] at h
    obtain ⟨ur1, h1, h2⟩ := h
    rw [List.mem_map] at h2
    obtain ⟨vt, h3, rfl⟩ := h2
    rw [run, List.mem_flatMap] at h3
    obtain ⟨ur2, h4, h5⟩ := h3
    rw [List.mem_map] at h5
    obtain ⟨vt2, h6, rfl⟩ := h5
    rw [run, List.mem_flatMap] at h6
    obtain ⟨ur3, h7, h8⟩ := h6
    rw [List.mem_map] at h8
    obtain ⟨vt3, h9, rfl⟩ := h8
    obtain ⟨a, u, h10, h11, -, -⟩ := run_plus_mem _ _ _ h9
    refine ⟨⟨a, by simp [h10], h11⟩, ?_⟩
    have hdot : ∃ t, ur3.1 = '.' :: t := by
      rw [chr] at h7
      cases hr : ur2.2 with
      | nil => rw [hr] at h7; simp [run] at h7
      | cons b s' =>
        rw [hr, run] at h7
        split at h7
        · rename_i hb
          simp only [List.mem_singleton] at h7
          have hb' : b = '.' := by simpa using hb
          exact ⟨[], by rw [h7, hb']⟩
        · simp at h7
    obtain ⟨t, ht⟩ := hdot
    rw [run] at h4
    obtain ⟨-, h12⟩ := runStar_mem _ _ _ h4
    rw [opt, run, List.mem_append] at h1
    rcases h1 with h1 | h1
    · cases s with
      | nil => simp [run] at h1
      | cons b s' =>
        rw [run] at h1
        split at h1
        · rename_i hb
          simp only [List.mem_singleton] at h1
          subst h1
          refine ⟨b, ur2.1 ++ (ur3.1 ++ vt3.1), by simp, ?_⟩
          simp only [Bool.or_eq_true, beq_iff_eq] at hb
          rcases hb with rfl | rfl <;> decide
        · simp at h1
    · simp only [run, List.mem_singleton] at h1
      subst h1
      cases hu2 : ur2.1 with
      | nil => exact ⟨'.', t ++ vt3.1, by simp [ht], by decide⟩
      | cons b u2 =>
        refine ⟨b, u2 ++ (ur3.1 ++ vt3.1), by simp, ?_⟩
        have := h12 b (by rw [hu2]; simp)
        simp [numStart, this]
  · rw [run, List.mem_append] at h
    rcases h with h | h <;> exact hplus ur h

theorem findall_number_nil (s : Str) (h : ∀ c ∈ s, isDigit c = false) : findall number s = [] := by
  induction s with
  | nil => rfl
  | cons a s ih =>
    have hn : matchAt number (a :: s) = none := by
      cases hm : matchAt number (a :: s) with
      | none => rfl
      | some ur =>
        exfalso
        obtain ⟨⟨c, hc, hd⟩, -⟩ := run_number_mem _ ur (List.mem_of_mem_head? hm)
        have := matchAt_append (u := ur.1) (t := ur.2) hm
        have hcs : c ∈ a :: s := by rw [← this]; exact List.mem_append_left _ hc
        rw [h c hcs] at hd; cases hd
    rw [findall_none hn]
    exact ih (fun c hc => h c (List.mem_cons_of_mem _ hc))

theorem findall_number_cons (s : Str) (h : ∃ c ∈ s, isDigit c = true) :
    ∃ u us, findall number s = u :: us ∧ (∃ c ∈ u, isDigit c = true) ∧
      ∃ a v, u = a :: v ∧ numStart a = true := by
  induction s with
  | nil => simp at h
  | cons a s ih =>
    cases hm : matchAt number (a :: s) with
    | some ur =>
      obtain ⟨u, r⟩ := ur
      obtain ⟨h1, h2⟩ := run_number_mem _ (u, r) (List.mem_of_mem_head? hm)
      have hne : u ≠ [] := by rintro rfl; simp at h1
      exact ⟨u, findall number r, findall_some hm hne, h1, h2⟩
    | none =>
      rw [findall_none hm]
      apply ih
      obtain ⟨c, hc, hd⟩ := h
      rcases List.mem_cons.1 hc with rfl | hc
      · exfalso
        obtain ⟨l, hl⟩ := run_plus_head isDigit c s hd
        have : run number (c :: s) ≠ [] := by
          simp [number, run, hl]
        rw [matchAt, List.head?_eq_none_iff] at hm
        exact this hm
      · exact ⟨c, hc, hd⟩

/-- First alternative of the number pattern, without the sign. -/
theorem run_opt_sign (a : Char) (s : Str) (h : a ≠ '-') (h' : a ≠ '+') (r : Re) :
    run (seq (opt (cls (fun c => c == '-' || c == '+'))) r) (a :: s) = run r (a :: s) := by
  simp [run, opt, h, h']

theorem takeWhile_append_head (p : Char → Bool) (ds rest : Str) (hd : ∀ c ∈ ds, p c = true)
    (hr : ∀ a t, rest = a :: t → p a = false) :
    (ds ++ rest).takeWhile p = ds ∧ (ds ++ rest).dropWhile p = rest := by
  induction ds with
  | nil =>
    cases rest with
    | nil => simp
    | cons a t => simp [hr a t rfl]
  | cons b ds ih =>
    have := ih (fun c hc => hd c (List.mem_cons_of_mem _ hc))
    simp [hd b (by simp), this]

/-- An integer literal is matched whole. -/
theorem matchAt_int (ds rest : Str) (hne : ds ≠ []) (hd : ∀ c ∈ ds, isDigit c = true)
    (hr : ∀ a t, rest = a :: t → isDigit a = false ∧ a ≠ '.') :
    matchAt number (ds ++ rest) = some (ds, rest) := by
  cases ds with
  | nil => exact absurd rfl hne
  | cons a ds =>
    have ha := hd a (by simp)
    have hfirst : run (seq (opt (cls (fun c => c == '-' || c == '+')))
        (seq (star isDigit) (seq (chr '.') (plus isDigit)))) (a :: (ds ++ rest)) = [] := by
      rw [run_opt_sign _ _ (not_isDigit_of (by decide) ha) (not_isDigit_of (by decide) ha)]
      rw [run, List.flatMap_eq_nil_iff]
      intro ur hur
      rw [run] at hur
      obtain ⟨h1, h2⟩ := runStar_mem _ _ _ hur
      rw [List.map_eq_nil_iff, run, List.flatMap_eq_nil_iff]
      intro ur3 h3
      exfalso
      rw [chr] at h3
      cases h2r : ur.2 with
      | nil => rw [h2r] at h3; simp [run] at h3
      | cons b s' =>
        rw [h2r, run] at h3
        split at h3
        · rename_i hb
          have hb' : b = '.' := by simpa using hb
          subst hb'
          rw [h2r, ← List.cons_append, List.append_eq_append_iff] at h1
          rcases h1 with ⟨k, h4, h5⟩ | ⟨k, h4, h5⟩
          · -- ur.1 is a prefix of the digits
            cases k with
            | nil =>
              simp only [List.nil_append] at h5
              exact (hr _ _ h5.symm).2 rfl
            | cons k0 k =>
              simp only [List.cons_append, List.cons.injEq] at h5
              have hk : k0 ∈ a :: ds := by rw [h4]; simp
              have := hd _ hk
              rw [← h5.1] at this
              revert this; decide
          · cases k with
            | nil =>
              simp only [List.nil_append] at h5
              exact (hr _ _ h5).2 rfl
            | cons k0 k =>
              have hk : k0 ∈ ur.1 := by rw [h4]; simp
              have := (hr k0 _ h5).1
              rw [h2 _ hk] at this; cases this
        · simp at h3
    obtain ⟨l, hl⟩ := run_plus_head isDigit a (ds ++ rest) ha
    obtain ⟨ht, hdr⟩ := takeWhile_append_head isDigit ds rest
      (fun c hc => hd c (List.mem_cons_of_mem _ hc)) (fun a t h => (hr a t h).1)
    rw [matchAt, number, List.cons_append, run, hfirst, List.nil_append, run, hl, ht, hdr]
    rfl

/-- A decimal literal is matched whole. -/
theorem matchAt_dec (ds fs rest : Str) (hd : ∀ c ∈ ds, isDigit c = true) (hne : fs ≠ [])
    (hf : ∀ c ∈ fs, isDigit c = true) (hr : ∀ a t, rest = a :: t → isDigit a = false) :
    matchAt number (ds ++ '.' :: fs ++ rest) = some (ds ++ '.' :: fs, rest) := by
  have hstart : ∃ a t, ds ++ '.' :: fs ++ rest = a :: t ∧ a ≠ '-' ∧ a ≠ '+' := by
    cases ds with
    | nil => exact ⟨'.', fs ++ rest, rfl, by decide, by decide⟩
    | cons a ds =>
      have ha := hd a (by simp)
      exact ⟨a, ds ++ '.' :: fs ++ rest, rfl, not_isDigit_of (by decide) ha,
        not_isDigit_of (by decide) ha⟩
  obtain ⟨a, t, h1, h2, h3⟩ := hstart
  cases fs with
  | nil => exact absurd rfl hne
  | cons f fs =>
    have hff := hf f (by simp)
    obtain ⟨l, hl⟩ := run_plus_head isDigit f (fs ++ rest) hff
    obtain ⟨ht, hdr⟩ := takeWhile_append_head isDigit fs rest
      (fun c hc => hf c (List.mem_cons_of_mem _ hc)) hr
    obtain ⟨ht2, hdr2⟩ := takeWhile_append_head isDigit ds ('.' :: ((f :: fs) ++ rest)) hd
      (by intro a t h; simp only [List.cons.injEq] at h; rw [← h.1]; decide)
    obtain ⟨l2, hl2⟩ := runStar_head isDigit (ds ++ '.' :: ((f :: fs) ++ rest))
    rw [ht2, hdr2] at hl2
    have hassoc : ds ++ '.' :: (f :: fs) ++ rest = ds ++ '.' :: ((f :: fs) ++ rest) := by simp
    rw [matchAt, number, run, List.head?_append, h1, run_opt_sign _ _ h2 h3, ← h1, hassoc, run]
    rw [show run (star isDigit) (ds ++ '.' :: ((f :: fs) ++ rest)) = _ from hl2]
    simp only [List.flatMap_cons, run, chr, beq_self_eq_true, if_true, List.flatMap_nil, List.append_nil,
      List.cons_append]
    rw [hl, ht, hdr]
    simp

end Re

/-! ### `index` and `split(st,1)` at the start -/

theorem isPrefixOf_self_append (a b : Str) : a.isPrefixOf (a ++ b) = true := by
  rw [List.isPrefixOf_iff_prefix]; exact List.prefix_append a b

theorem findSub_zero_iff (sub s : Str) : findSub sub s = some 0 ↔ sub <+: s := by
  cases s with
  | nil =>
    simp only [findSub, List.prefix_nil]
    split <;> simp_all
  | cons a s =>
    rw [findSub]
    by_cases h : sub.isPrefixOf (a :: s) = true
    · simp only [h, if_true, true_iff]
      exact List.isPrefixOf_iff_prefix.1 h
    · simp only [h]
      constructor
      · intro h2
        cases h3 : findSub sub s <;> simp [h3] at h2
      · intro h2; exact absurd (List.isPrefixOf_iff_prefix.2 h2) h

theorem afterFirst_prefix (sub s : Str) : afterFirst sub (sub ++ s) = some s := by
  cases h : sub ++ s with
  | nil =>
    simp only [List.append_eq_nil_iff] at h
    obtain ⟨rfl, rfl⟩ := h; rfl
  | cons a t =>
    rw [afterFirst, ← h, isPrefixOf_self_append, if_pos rfl, List.drop_left]

/-! ### `parseTerm` -/

/-- A term that does not begin like a number is a name with coefficient one. -/
theorem parseTerm_name (name : Str) (h : ∀ a t, name = a :: t → Re.numStart a = false) :
    parseTerm name = (1, name) := by
  unfold parseTerm
  by_cases hd : ∃ c ∈ name, isDigit c = true
  · obtain ⟨u, us, hf, -, a, v, rfl, ha⟩ := Re.findall_number_cons name hd
    have hno : findSub (a :: v) name ≠ some 0 := by
      rw [Ne, findSub_zero_iff]
      rintro ⟨w, hw⟩
      have := h a (v ++ w) (by rw [← hw]; rfl)
      rw [ha] at this; cases this
    rw [hf]
    cases us with
    | nil => simp [hno]
    | cons n2 us => simp [hno]
  · rw [Re.findall_number_nil name (by
      intro c hc
      by_contra hcon
      exact hd ⟨c, hc, by simpa using hcon⟩)]

/-- A literal followed by a name without digits. -/
theorem parseTerm_lit {lit name : Str} (hm : Re.matchAt Re.number (lit ++ name) = some (lit, name))
    (hne : lit ≠ []) (hn : ∀ c ∈ name, isDigit c = false) :
    parseTerm (lit ++ name) = (pyFloat lit, name) := by
  unfold parseTerm
  rw [Re.findall_some hm hne, Re.findall_number_nil name hn]
  simp [(findSub_zero_iff lit (lit ++ name)).2 (List.prefix_append _ _), afterFirst_prefix]

/-- A literal followed by a name with a digit: the first number of the name is written a second
time at its end. -/
theorem parseTerm_lit_digit {lit name : Str} (hm : Re.matchAt Re.number (lit ++ name) = some (lit, name))
    (hne : lit ≠ []) (hn : ∃ c ∈ name, isDigit c = true) :
    ∃ u us, Re.findall Re.number name = u :: us ∧ u ≠ [] ∧
      parseTerm (lit ++ name) = (pyFloat lit, name ++ u) := by
  obtain ⟨u, us, hf, hu, -⟩ := Re.findall_number_cons name hn
  refine ⟨u, us, hf, by rintro rfl; simp at hu, ?_⟩
  unfold parseTerm
  rw [Re.findall_some hm hne, hf]
  simp [(findSub_zero_iff lit (lit ++ name)).2 (List.prefix_append _ _), afterFirst_prefix]

theorem pyFloat_int (ds : Str) (hd : ∀ c ∈ ds, isDigit c = true) : pyFloat ds = digitsVal ds := by
  have hm : ∀ r, ds ≠ '-' :: r := by
    rintro r rfl; have := hd '-' (by simp); revert this; decide
  have hp : ∀ r, ds ≠ '+' :: r := by
    rintro r rfl; have := hd '+' (by simp); revert this; decide
  have hdot : '.' ∉ ds := by intro h; have := hd _ h; revert this; decide
  unfold pyFloat
  split
  rename_i neg d heq
  split at heq
  · exact absurd rfl (hm _)
  · exact absurd rfl (hp _)
  · obtain ⟨rfl, rfl⟩ := Prod.mk.inj heq
    rw [split1_of_not_mem _ _ hdot]; simp

theorem pyFloat_dec (ds fs : Str) (hd : ∀ c ∈ ds, isDigit c = true) :
    pyFloat (ds ++ '.' :: fs) = digitsVal ds + (digitsVal fs : ℚ) / 10 ^ fs.length := by
  have hm : ∀ r, ds ++ '.' :: fs ≠ '-' :: r := by
    intro r h
    cases ds with
    | nil => simp at h
    | cons a ds =>
      have := hd a (by simp)
      simp only [List.cons_append, List.cons.injEq] at h
      rw [h.1] at this; revert this; decide
  have hp : ∀ r, ds ++ '.' :: fs ≠ '+' :: r := by
    intro r h
    cases ds with
    | nil => simp at h
    | cons a ds =>
      have := hd a (by simp)
      simp only [List.cons_append, List.cons.injEq] at h
      rw [h.1] at this; revert this; decide
  have hdot : '.' ∉ ds := by intro h; have := hd _ h; revert this; decide
  unfold pyFloat
  split
  rename_i neg d heq
  split at heq
  · rename_i r h; exact absurd h (hm _)
  · rename_i r h; exact absurd h (hp _)
  · obtain ⟨rfl, rfl⟩ := Prod.mk.inj heq
    rw [split1_append _ _ _ hdot]; simp

end PyBox
