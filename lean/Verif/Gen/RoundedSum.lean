import Verif.Gen.Rounded
import Verif.Gen.Lines

/-!
# Rounding in sums of products

The right-hand sides of the gas routines are sums of products. How they are read, and the error of their evaluation.
-/

namespace PyBox

open Rl

/-! ### Reading -/

/-- The product of an expression and operands. -/
def prodEx (a : Ex) (fs : List Fac) : Ex := fs.foldl (fun a f => .mul a f.ex) a

/-- The first term of a sum. In Python its sign belongs to the first operand, in Fortran to the product. -/
def firstEx (lang : Lang) (t : Term) : Ex :=
  match lang with
  | .python => prodEx (if t.neg then .neg t.hd.ex else t.hd.ex) t.tl
  | .fortran => if t.neg then .neg (prodEx t.hd.ex t.tl) else prodEx t.hd.ex t.tl

/-- Further terms. -/
def sumEx (s : Ex) (ts : List Term) : Ex :=
  ts.foldl (fun s t => if t.neg then .sub s (prodEx t.hd.ex t.tl) else .add s (prodEx t.hd.ex t.tl)) s

theorem rhsTks_append (b : Backend) (a c : List Tok) : rhsTks b (a ++ c) = rhsTks b a ++ rhsTks b c := by
  simp [rhsTks]

theorem rhsTks_mulToks_cons (b : Backend) (f : Fac) (fs : List Fac) (ts : List Tk) :
    rhsTks b (mulToks (f :: fs)) ++ ts = .sym '*' :: (f.tks b ++ (rhsTks b (mulToks fs) ++ ts)) := by
  rw [mulToks_cons]
  simp [rhsTks, Tok.tks]

theorem rhsTks_sumToks_cons (b : Backend) (t : Term) (ts : List Term) :
    rhsTks b (sumToks (t :: ts)) = .sym (if t.neg then '-' else '+') ::
      (t.hd.tks b ++ (rhsTks b (mulToks t.tl) ++ rhsTks b (sumToks ts))) := by
  rw [sumToks_cons, rhsTks_append]
  obtain ⟨neg, hd, tl⟩ := t
  cases neg <;> simp [Term.toks, rhsTks, Tok.tks]

/-- What comes after a product is the end or a sign. -/
def SignNext (ts : List Tk) : Prop := ts = [] ∨ ∃ c us, (c = '+' ∨ c = '-') ∧ ts = .sym c :: us

theorem sumToks_signNext (b : Backend) (ts : List Term) : SignNext (rhsTks b (sumToks ts)) := by
  cases ts with
  | nil => exact .inl rfl
  | cons t ts =>
    refine .inr ⟨_, _, ?_, rhsTks_sumToks_cons b t ts⟩
    cases t.neg <;> simp

theorem SignNext.noPow {ts : List Tk} (h : SignNext ts) : NoPow ts := by
  rcases h with rfl | ⟨c, us, _, rfl⟩ <;> simp [NoPow]

theorem mul_noPow (b : Backend) (fs : List Fac) {ts : List Tk} (h : SignNext ts) :
    NoPow (rhsTks b (mulToks fs) ++ ts) := by
  cases fs with
  | nil => exact h.noPow
  | cons f fs => rw [rhsTks_mulToks_cons]; simp [NoPow]

theorem parse_prod (lang : Lang) : ∀ (fs : List Fac) (a : Ex) (n : Nat) {ts : List Tk}, fs.length + 7 ≤ n → SignNext ts →
    prodTail lang.backend n a (rhsTks lang.backend (mulToks fs) ++ ts) = some (prodEx a fs, ts) := by
  intro fs
  induction fs with
  | nil =>
    intro a n ts hn hts
    obtain ⟨n, rfl⟩ : ∃ m, n = m + 1 := ⟨n - 1, by omega⟩
    show prodTail lang.backend (n + 1) a ts = _
    rcases hts with rfl | ⟨c, us, hc, rfl⟩
    · rw [prodTail]
      · rfl
      · intro _ h; cases h
      · intro _ h; cases h
    · rw [prodTail]
      · rfl
      · intro _ h; cases h; rcases hc with h | h <;> cases h
      · intro _ h; cases h; rcases hc with h | h <;> cases h
  | cons f fs ih =>
    intro a n ts hn hts
    rw [List.length_cons] at hn
    obtain ⟨n, rfl⟩ : ∃ m, n = m + 7 := ⟨n - 7, by omega⟩
    rw [rhsTks_mulToks_cons, prodTail, parseUnary_fac lang f n _ (mul_noPow _ fs hts)]
    exact ih (.mul a f.ex) (n + 6) (by omega) hts

theorem parse_first (lang : Lang) (f : Fac) (fs : List Fac) (n : Nat) {ts : List Tk} (hn : fs.length + 8 ≤ n)
    (hts : SignNext ts) : parseProd lang.backend n (f.tks lang.backend ++ (rhsTks lang.backend (mulToks fs) ++ ts)) =
      some (prodEx f.ex fs, ts) := by
  obtain ⟨n, rfl⟩ : ∃ m, n = m + 7 := ⟨n - 7, by omega⟩
  rw [parseProd_fac lang f n _ (mul_noPow _ fs hts)]
  exact parse_prod lang fs f.ex (n + 6) (by omega) hts

/-- How much the reader may need for a sum. -/
def sumSize (ts : List Term) : Nat := (ts.map fun t => t.tl.length + 1).sum

theorem parse_terms (lang : Lang) : ∀ (ts : List Term) (s : Ex) (n : Nat), sumSize ts + 8 ≤ n →
    sumTail lang.backend n s (rhsTks lang.backend (sumToks ts)) = some (sumEx s ts, []) := by
  intro ts
  induction ts with
  | nil =>
    intro s n hn
    obtain ⟨n, rfl⟩ : ∃ m, n = m + 1 := ⟨n - 1, by omega⟩
    show sumTail lang.backend (n + 1) s [] = _
    rw [sumTail]
    · rfl
    · intro _ h; cases h
    · intro _ h; cases h
  | cons t ts ih =>
    intro s n hn
    have hs : sumSize (t :: ts) = t.tl.length + 1 + sumSize ts := rfl
    obtain ⟨n, rfl⟩ : ∃ m, n = m + 1 := ⟨n - 1, by omega⟩
    have hp := parse_first lang t.hd t.tl n (by omega) (sumToks_signNext lang.backend ts)
    rw [rhsTks_sumToks_cons]
    obtain ⟨neg, hd, tl⟩ := t
    cases neg
    · show sumTail lang.backend (n + 1) s (.sym '+' :: _) = _
      rw [sumTail, hp]
      exact ih (.add s (prodEx hd.ex tl)) n (by omega)
    · show sumTail lang.backend (n + 1) s (.sym '-' :: _) = _
      rw [sumTail, hp]
      exact ih (.sub s (prodEx hd.ex tl)) n (by omega)

theorem fac_tks_length (b : Backend) (f : Fac) : 1 ≤ (f.tks b).length := by cases f <;> simp [Fac.tks]

theorem mulToks_size (b : Backend) (fs : List Fac) : fs.length ≤ (rhsTks b (mulToks fs)).length := by
  induction fs with
  | nil => simp
  | cons f fs ih =>
    have := congrArg List.length (rhsTks_mulToks_cons b f fs [])
    simp only [List.append_nil, List.length_cons, List.length_append] at this
    rw [this, List.length_cons]
    omega

theorem sumToks_size (b : Backend) (ts : List Term) : sumSize ts ≤ (rhsTks b (sumToks ts)).length := by
  induction ts with
  | nil => simp [sumSize]
  | cons t ts ih =>
    have hs : sumSize (t :: ts) = t.tl.length + 1 + sumSize ts := rfl
    rw [rhsTks_sumToks_cons, hs, List.length_cons, List.length_append, List.length_append]
    have := mulToks_size b t.tl
    omega

/-- A signed sum as an expression. -/
theorem parse_sumToks (lang : Lang) (t : Term) (ts : List Term) :
    parseExpr lang.backend (rhsTks lang.backend (sumToks (t :: ts))) = some (sumEx (firstEx lang t) ts) := by
  have hL := sumToks_size lang.backend (t :: ts)
  have hs : sumSize (t :: ts) = t.tl.length + 1 + sumSize ts := rfl
  unfold parseExpr
  obtain ⟨n, hn⟩ : ∃ n, 8 * (rhsTks lang.backend (sumToks (t :: ts))).length + 8 = n + 2 := ⟨_, rfl⟩
  rw [hn]
  have hsz : t.tl.length + sumSize ts + 9 ≤ n := by omega
  rw [rhsTks_sumToks_cons]
  have hnext := sumToks_signNext lang.backend ts
  have hP := parse_first lang t.hd t.tl (n + 1) (by omega) hnext
  have key : parseSum lang.backend (n + 2) (.sym (if t.neg then '-' else '+') ::
      (t.hd.tks lang.backend ++ (rhsTks lang.backend (mulToks t.tl) ++ rhsTks lang.backend (sumToks ts)))) =
      some (sumEx (firstEx lang t) ts, []) := by
    cases lang with
    | fortran =>
      have hT := fun s => parse_terms .fortran ts s (n + 1) (by omega)
      obtain ⟨neg, hd, tl⟩ := t
      cases neg
      · show parseSum .fortran (n + 1 + 1) (.sym '+' :: _) = _
        rw [parseSum]
        exact (congrArg (fun o : Option (Ex × List Tk) => o.bind (fun p => sumTail .fortran (n + 1) p.1 p.2)) hP).trans
          (hT _)
      · show parseSum .fortran (n + 1 + 1) (.sym '-' :: _) = _
        rw [parseSum]
        exact (congrArg (fun o : Option (Ex × List Tk) => o.bind (fun p => sumTail .fortran (n + 1) (.neg p.1) p.2))
          hP).trans (hT _)
    | python =>
      have hT := fun s => parse_terms .python ts s (n + 1) (by omega)
      have hprod := fun a => parse_prod .python t.tl a n (by omega) hnext
      obtain ⟨neg, hd, tl⟩ := t
      have hun : ∀ rest, NoPow rest → parseUnary .numba (n - 1) (hd.tks .numba ++ rest) = some (hd.ex, rest) := by
        intro rest hrest
        obtain ⟨k, hk⟩ : ∃ k, n - 1 = k + 6 := ⟨n - 7, by omega⟩
        rw [hk]
        exact parseUnary_fac .python hd k rest hrest
      have hnp := mul_noPow Lang.python.backend tl hnext
      obtain ⟨k, rfl⟩ : ∃ k, n = k + 1 := ⟨n - 1, by omega⟩
      rw [Nat.add_sub_cancel] at hun
      have hsum : ∀ (c : Char) (ts : List Tk), parseSum .numba (k + 1 + 2) (.sym c :: ts) =
          (parseUnary .numba (k + 1) (.sym c :: ts)).bind (fun p =>
            (prodTail .numba (k + 1) p.1 p.2).bind (fun p => sumTail .numba (k + 1 + 1) p.1 p.2)) := by
        intro c ts
        rw [parseSum]
        · rw [parseProd, if_neg (by decide)]
          cases parseUnary .numba (k + 1) (.sym c :: ts) with
          | none => rfl
          | some p => rfl
        · intro _ h; cases h
        · intro _ h; cases h
      cases neg
      · refine (hsum '+' _).trans ?_
        have h2 : parseUnary .numba (k + 1) (.sym '+' :: (hd.tks .numba ++ (rhsTks .numba (mulToks tl) ++
            rhsTks .numba (sumToks ts)))) = some (hd.ex, rhsTks .numba (mulToks tl) ++
            rhsTks .numba (sumToks ts)) := by
          rw [parseUnary]
          exact hun _ hnp
        refine (congrArg (fun o : Option (Ex × List Tk) => o.bind _) h2).trans ?_
        exact (congrArg (fun o : Option (Ex × List Tk) => o.bind _) (hprod hd.ex)).trans (hT _)
      · refine (hsum '-' _).trans ?_
        have h2 : parseUnary .numba (k + 1) (.sym '-' :: (hd.tks .numba ++ (rhsTks .numba (mulToks tl) ++
            rhsTks .numba (sumToks ts)))) = some (.neg hd.ex, rhsTks .numba (mulToks tl) ++
            rhsTks .numba (sumToks ts)) := by
          rw [parseUnary]
          exact (congrArg (fun o : Option (Ex × List Tk) => o.bind (fun p => some (Ex.neg p.1, p.2))) (hun _ hnp)).trans rfl
        refine (congrArg (fun o : Option (Ex × List Tk) => o.bind _) h2).trans ?_
        exact (congrArg (fun o : Option (Ex × List Tk) => o.bind _) (hprod (.neg hd.ex))).trans (hT _)
  rw [key]

/-- A product without a sign as an expression. -/
theorem parse_mulToks (lang : Lang) (f : Fac) (fs : List Fac) :
    parseExpr lang.backend (rhsTks lang.backend (.fac f :: mulToks fs)) = some (prodEx f.ex fs) := by
  have e : rhsTks lang.backend (.fac f :: mulToks fs) = f.tks lang.backend ++ (rhsTks lang.backend (mulToks fs) ++ []) := by
    rw [List.append_nil]; rfl
  have hL := mulToks_size lang.backend fs
  have hf := fac_tks_length lang.backend f
  unfold parseExpr
  rw [e]
  obtain ⟨n, hn⟩ : ∃ n, 8 * (f.tks lang.backend ++ (rhsTks lang.backend (mulToks fs) ++ [])).length + 8 = n + 1 := ⟨_, rfl⟩
  have hn' := hn
  simp only [List.length_append, List.length_nil] at hn'
  rw [hn]
  have hP := parse_first lang f fs n (by omega) (.inl rfl)
  obtain ⟨t, u, et, ht⟩ := fac_tks_head lang.backend f (rhsTks lang.backend (mulToks fs) ++ [])
  have : parseSum lang.backend (n + 1) (f.tks lang.backend ++ (rhsTks lang.backend (mulToks fs) ++ [])) =
      some (prodEx f.ex fs, []) := by
    have h0 := parse_terms lang [] (prodEx f.ex fs) n (by simp [sumSize]; omega)
    rw [parseSum]
    · exact (congrArg (fun o : Option (Ex × List Tk) => o.bind (fun p => sumTail lang.backend n p.1 p.2)) hP).trans h0
    · intro us _ hu; exact ht _ (List.cons.inj (et.symm.trans hu)).1
    · intro us _ hu; exact ht _ (List.cons.inj (et.symm.trans hu)).1
  rw [this]

/-! ### Errors -/

/-- What the evaluation of an operand may be off by: nothing for elements of arrays, `dbl` for powers with exact
exponents, and what `cost` says for coefficients. -/
def FacCost (K : Kind → Prop) : Fac → ℝ → Prop
  | .y _, c => 0 ≤ c
  | .r _, c => 0 ≤ c
  | .ypow _ s, c => LitCost K s 0 ∧ dbl ≤ c
  | .num q, c => 0 ≤ c ∧ LitCost K q c

variable {K : Kind → Prop}

theorem Close.mono {env : Vals} {x : Ex} {c c' M M' : ℝ} (h : Close K env x c M) (hc : c ≤ c') (hM : M ≤ M') : Close K env x c' M' :=
  fun e he hl v hv => ⟨(h e he hl v hv).1.mono hc hM, (h e he hl v hv).2⟩

theorem FacCost.nonneg {f : Fac} {c : ℝ} (h : FacCost K f c) : 0 ≤ c := by
  cases f with
  | y i => exact h
  | r i => exact h
  | ypow i s => exact dbl_nonneg.trans h.2
  | num q => exact h.1

def Fac.IsNum : Fac → Prop
  | .num _ => True
  | _ => False

theorem close_fac (lang : Lang) (env : Env) {f : Fac} {c : ℝ} (h : FacCost K f c) :
    Close K (env.vals lang) f.ex c |f.val (lang.sees env)| := by
  have e := Fac.ex_val lang env f
  rw [← e]
  cases f with
  | y i => exact (close_var _).mono h le_rfl
  | r i => exact (close_var _).mono h le_rfl
  | ypow i s => exact (close_pow _ h.1).1.mono h.2 le_rfl
  | num q => exact close_num h.2

theorem isDbl_fac (lang : Lang) (env : Env) {f : Fac} {c : ℝ} (h : FacCost K f c) (hn : ¬ f.IsNum) :
    IsDbl K (env.vals lang) f.ex := by
  cases f with
  | y i => exact isDbl_var _
  | r i => exact isDbl_var _
  | ypow i s => exact (close_pow _ h.1).2
  | num q => exact absurd trivial hn

/-- Factors after the first one. -/
theorem close_prod (lang : Lang) (env : Env) : ∀ (fs : List Fac) (cs : List ℝ), List.Forall₂ (FacCost K) fs cs →
    ∀ {a : Ex} {c M : ℝ}, Close K (env.vals lang) a c M → IsDbl K (env.vals lang) a →
    Close K (env.vals lang) (prodEx a fs) (c + (cs.sum + fs.length * dbl))
      (M * |(fs.map (Fac.val (lang.sees env))).prod|) ∧ IsDbl K (env.vals lang) (prodEx a fs) := by
  intro fs
  induction fs with
  | nil =>
    intro cs h a c M ha hd
    cases h
    exact ⟨ha.mono (by simp) (by simp), hd⟩
  | cons f fs ih =>
    intro cs h a c M ha hd
    cases h with
    | @cons _ c0 _ cs h0 h =>
      obtain ⟨h1, h2⟩ := ha.mul (close_fac lang env h0) (Or.inl hd)
      obtain ⟨h3, h4⟩ := ih cs h h1 h2
      refine ⟨h3.mono (le_of_eq ?_) (le_of_eq ?_), h4⟩
      · rw [List.sum_cons, List.length_cons]; push_cast; ring
      · rw [List.map_cons, List.prod_cons, abs_mul]; ring

/-- The first factor may be a number if the second one is not. -/
def Term.Led (t : Term) : Prop := ¬ t.hd.IsNum ∨ ∃ f fs, t.tl = f :: fs ∧ ¬ f.IsNum

/-- The cost of a term. -/
def TermCost (K : Kind → Prop) (t : Term) (c : ℝ) : Prop :=
  t.Led ∧ ∃ c0 cs, FacCost K t.hd c0 ∧ List.Forall₂ (FacCost K) t.tl cs ∧ c0 + (cs.sum + t.tl.length * dbl) ≤ c

theorem close_led (lang : Lang) (env : Env) {t : Term} {c : ℝ} (h : TermCost K t c) {a : Ex}
    (ha : ∀ {c0}, FacCost K t.hd c0 → Close K (env.vals lang) a c0 |t.hd.val (lang.sees env)|)
    (hd : ¬ t.hd.IsNum → IsDbl K (env.vals lang) a) :
    Close K (env.vals lang) (prodEx a t.tl) c |t.val (lang.sees env)| ∧ IsDbl K (env.vals lang) (prodEx a t.tl) := by
  obtain ⟨hl, c0, cs, h0, hcs, hc⟩ := h
  have e : |t.val (lang.sees env)| = |t.hd.val (lang.sees env)| * |(t.tl.map (Fac.val (lang.sees env))).prod| := by
    unfold Term.val
    rw [abs_mul]
    split <;> simp
  rw [e]
  by_cases hn : t.hd.IsNum
  · rcases hl with hl | ⟨f, fs, hf, hnf⟩
    · exact absurd hn hl
    · rw [hf] at hcs hc
      cases hcs with
      | @cons _ c1 _ cs h1 hcs =>
        obtain ⟨g1, g2⟩ := (ha h0).mul (close_fac lang env h1) (Or.inr (isDbl_fac lang env h1 hnf))
        obtain ⟨g3, g4⟩ := close_prod lang env fs cs hcs g1 g2
        rw [hf]
        refine ⟨g3.mono ?_ (le_of_eq ?_), g4⟩
        · rw [List.sum_cons, List.length_cons] at hc
          push_cast at hc
          linarith
        · rw [List.map_cons, List.prod_cons, abs_mul]; ring
  · obtain ⟨g3, g4⟩ := close_prod lang env t.tl cs hcs (ha h0) (hd hn)
    exact ⟨g3.mono hc le_rfl, g4⟩

theorem close_term (lang : Lang) (env : Env) {t : Term} {c : ℝ} (h : TermCost K t c) :
    Close K (env.vals lang) (prodEx t.hd.ex t.tl) c |t.val (lang.sees env)| ∧
      IsDbl K (env.vals lang) (prodEx t.hd.ex t.tl) := by
  obtain ⟨-, c0, cs, h0, -⟩ := id h
  exact close_led lang env h (fun h => close_fac lang env h) (isDbl_fac lang env h0)

theorem close_first (lang : Lang) (env : Env) {t : Term} {c : ℝ} (h : TermCost K t c) :
    Close K (env.vals lang) (firstEx lang t) c |t.val (lang.sees env)| ∧ IsDbl K (env.vals lang) (firstEx lang t) := by
  obtain ⟨-, c0, cs, h0, -⟩ := id h
  obtain ⟨g1, g2⟩ := close_term lang env h
  cases lang with
  | python =>
    unfold firstEx
    refine close_led .python env h (fun h => ?_) (fun hn => ?_)
    · split
      · exact (close_fac .python env h).neg
      · exact close_fac .python env h
    · split
      · exact (isDbl_fac .python env h0 hn).neg
      · exact isDbl_fac .python env h0 hn
  | fortran =>
    unfold firstEx
    dsimp only
    split
    · exact ⟨g1.neg, g2.neg⟩
    · exact ⟨g1, g2⟩

theorem close_sum (lang : Lang) (env : Env) : ∀ (ts : List Term) {c : ℝ}, (∀ t ∈ ts, TermCost K t c) →
    ∀ {s : Ex} {c' M : ℝ}, c ≤ c' → Close K (env.vals lang) s c' M → IsDbl K (env.vals lang) s →
    Close K (env.vals lang) (sumEx s ts) (c' + ts.length * dbl)
      (M + (ts.map fun t => |t.val (lang.sees env)|).sum) ∧ IsDbl K (env.vals lang) (sumEx s ts) := by
  intro ts
  induction ts with
  | nil => intro c _ s c' M _ hs hd; exact ⟨hs.mono (by simp) (by simp), hd⟩
  | cons t ts ih =>
    intro c h s c' M hc hs hd
    obtain ⟨g1, g2⟩ := close_term lang env (h t (by simp))
    have hmax : max c' c = c' := max_eq_left hc
    have key : Close K (env.vals lang) (if t.neg then .sub s (prodEx t.hd.ex t.tl) else .add s (prodEx t.hd.ex t.tl))
        (c' + dbl) (M + |t.val (lang.sees env)|) ∧
        IsDbl K (env.vals lang) (if t.neg then .sub s (prodEx t.hd.ex t.tl) else .add s (prodEx t.hd.ex t.tl)) := by
      split
      · have := hs.sub g1 (Or.inl hd)
        rwa [hmax] at this
      · have := hs.add g1 (Or.inl hd)
        rwa [hmax] at this
    obtain ⟨g3, g4⟩ := ih (fun t ht => h t (List.mem_cons_of_mem _ ht)) (by linarith [dbl_nonneg]) key.1 key.2
    refine ⟨g3.mono (le_of_eq ?_) (le_of_eq ?_), g4⟩
    · rw [List.length_cons]; push_cast; ring
    · rw [List.map_cons, List.sum_cons]; ring

/-- The value of a sum of terms, all of them with a cost of at most `c`, is off by at most `c` and one rounding for
each term, relative to the sum of the absolute values. -/
theorem close_sumToks (lang : Lang) (env : Env) {t : Term} {ts : List Term} {c : ℝ} (h : ∀ u ∈ t :: ts, TermCost K u c)
    {x : Ex} (hx : parseExpr lang.backend (rhsTks lang.backend (sumToks (t :: ts))) = some x) :
    Close K (env.vals lang) x (c + ts.length * dbl) ((t :: ts).map fun t => |t.val (lang.sees env)|).sum := by
  rw [parse_sumToks] at hx
  obtain rfl := Option.some.inj hx
  obtain ⟨g1, g2⟩ := close_first lang env (h t (by simp))
  exact (close_sum lang env ts (fun u hu => h u (List.mem_cons_of_mem _ hu)) le_rfl g1 g2).1

/-- The same for a product of elements. -/
theorem close_mulToks (lang : Lang) (env : Env) {f : Fac} {fs : List Fac} {c : ℝ} (h : TermCost K ⟨false, f, fs⟩ c)
    {x : Ex} (hx : parseExpr lang.backend (rhsTks lang.backend (.fac f :: mulToks fs)) = some x) :
    Close K (env.vals lang) x c |f.val (lang.sees env) * (fs.map (Fac.val (lang.sees env))).prod| := by
  rw [parse_mulToks] at hx
  obtain rfl := Option.some.inj hx
  exact (close_term lang env h).1

end PyBox
