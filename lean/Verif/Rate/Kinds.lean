import Verif.Rate.Eval

/-!
# Numbers in Fortran have kinds

`Rate/Lang.lean` reads the rate files in exact real arithmetic.  In Fortran a literal without a point and an
exponent is an integer, and integers divide without remainder; a literal with a point or the exponent letter `E`
has single precision, with `D` double precision.  The converter of the rate texts turns every `D` into `E`
(`/repo/rate_coeff_conversion.py` lines 222–234), and the texts of the fixed part write `E` as well
(`/repo/Parse_eqn_file.py` lines 1340–1743), whereas the variables are declared `REAL(8)` (lines 1312–1372).

Here the same files are read with the kinds of their literals.  The value of an expression is a relation: each literal
and each operation may be off by a relative error, which is bounded by the precision of its kind.  Integers are exact,
have 32 bits, and divide towards zero.
-/

namespace PyBox
namespace Rl

/-- Precisions of a floating-point number. -/
inductive Prec where
  | single
  | double
  deriving DecidableEq

/-- Kinds of a literal. -/
inductive Kind where
  | int
  | real (p : Prec)
  deriving DecidableEq

inductive KTk where
  | num (q : ℚ) (k : Kind)
  | id (s : Str)
  | sym (c : Char)
  | pow
  | le
  deriving DecidableEq

def KTk.erase : KTk → Tk
  | .num q _ => .num q
  | .id s => .id s
  | .sym c => .sym c
  | .pow => .pow
  | .le => .le

/-- The kind by the exponent letter at the head of a text; `k` without one. -/
def expKind (k : Kind) : Str → Kind
  | c :: _ => if c = 'd' ∨ c = 'D' then .real .double else if c = 'e' ∨ c = 'E' then .real .single else k
  | [] => k

/-- The kind of the number literal at the head of a text. -/
def litKind (s : Str) : Kind :=
  match s.dropWhile isDigit with
  | '.' :: t => expKind (.real .single) (t.dropWhile isDigit)
  | r => expKind .int r

/-- Split a line into tokens. -/
def kLex : Nat → Str → Option (List KTk)
  | 0, _ => none
  | _ + 1, [] => some []
  | n + 1, c :: s =>
    if isSpace c then kLex n s
    else if isDigit c then
      (kLex n (lexNum .fortran (c :: s)).2).map
        (KTk.num (lexNum .fortran (c :: s)).1 (litKind (c :: s)) :: ·)
    else if isLetter c then
      (kLex n ((c :: s).dropWhile isIdent)).map (KTk.id ((c :: s).takeWhile isIdent) :: ·)
    else if c = '*' ∧ s.head? = some '*' then (kLex n s.tail).map (KTk.pow :: ·)
    else if c = '<' ∧ s.head? = some '=' then (kLex n s.tail).map (KTk.le :: ·)
    else if c ∈ ['+', '-', '*', '/', '(', ')', '[', ']', '=', ':', ','] then
      (kLex n s).map (KTk.sym c :: ·)
    else none

/-! ### Expressions -/

inductive Op where
  | add | sub | mul | div | pow
  deriving DecidableEq

inductive KEx where
  | num (q : ℚ) (k : Kind)
  | var (v : Var)
  | neg (a : KEx)
  | bin (o : Op) (a b : KEx)
  | call (f : Fn) (a : KEx)
  deriving DecidableEq

/-- Forget the kinds. -/
def KEx.erase : KEx → Ex
  | .num q _ => .num q
  | .var v => .var v
  | .neg a => .neg a.erase
  | .bin .add a b => .add a.erase b.erase
  | .bin .sub a b => .sub a.erase b.erase
  | .bin .mul a b => .mul a.erase b.erase
  | .bin .div a b => .div a.erase b.erase
  | .bin .pow a b => .pow a.erase b.erase
  | .call f a => .call f a.erase

mutual

/-- As `parseSum` for Fortran. -/
def kSum : Nat → List KTk → Option (KEx × List KTk)
  | 0, _ => none
  | n + 1, .sym '-' :: ts => do
    let (a, ts) ← kProd n ts
    kSumTail n (.neg a) ts
  | n + 1, .sym '+' :: ts => do
    let (a, ts) ← kProd n ts
    kSumTail n a ts
  | n + 1, ts => do
    let (a, ts) ← kProd n ts
    kSumTail n a ts

def kSumTail : Nat → KEx → List KTk → Option (KEx × List KTk)
  | 0, _, _ => none
  | n + 1, a, .sym '+' :: ts => do
    let (c, ts) ← kProd n ts
    kSumTail n (.bin .add a c) ts
  | n + 1, a, .sym '-' :: ts => do
    let (c, ts) ← kProd n ts
    kSumTail n (.bin .sub a c) ts
  | _ + 1, a, ts => some (a, ts)

def kProd : Nat → List KTk → Option (KEx × List KTk)
  | 0, _ => none
  | n + 1, ts => do
    let (a, ts) ← kPow n ts
    kProdTail n a ts

def kProdTail : Nat → KEx → List KTk → Option (KEx × List KTk)
  | 0, _, _ => none
  | n + 1, a, .sym '*' :: ts => do
    let (c, ts) ← kUnary n ts
    kProdTail n (.bin .mul a c) ts
  | n + 1, a, .sym '/' :: ts => do
    let (c, ts) ← kUnary n ts
    kProdTail n (.bin .div a c) ts
  | _ + 1, a, ts => some (a, ts)

def kUnary : Nat → List KTk → Option (KEx × List KTk)
  | 0, _ => none
  | n + 1, .sym '-' :: ts => do
    let (a, ts) ← kUnary n ts
    return (.neg a, ts)
  | n + 1, .sym '+' :: ts => kUnary n ts
  | n + 1, ts => kPow n ts

def kPow : Nat → List KTk → Option (KEx × List KTk)
  | 0, _ => none
  | n + 1, ts => do
    let (a, ts) ← kAtom n ts
    match ts with
    | .pow :: ts => do
      let (c, ts) ← kUnary n ts
      return (.bin .pow a c, ts)
    | ts => return (a, ts)

def kAtom : Nat → List KTk → Option (KEx × List KTk)
  | 0, _ => none
  | n + 1, ts =>
    match ts with
    | .num q k :: ts => some (.num q k, ts)
    | .sym '(' :: ts => do
      let (a, ts) ← kSum n ts
      match ts with
      | .sym ')' :: ts => return (a, ts)
      | _ => none
    | .id s :: ts =>
      match fnOf .fortran s, ts with
      | some f, .sym '(' :: ts => do
        let (a, ts) ← kSum n ts
        match ts with
        | .sym ')' :: ts => return (.call f a, ts)
        | _ => none
      | some _, _ => none
      | none, .sym o :: .num q k :: .sym c :: ts' =>
        if o = '(' ∧ c = ')' then (subscript q).map (fun j => (.var ⟨s, some j⟩, ts'))
        else some (.var ⟨s, none⟩, .sym o :: .num q k :: .sym c :: ts')
      | none, ts => some (.var ⟨s, none⟩, ts)
    | _ => none

end

/-- A whole token list as an expression. -/
def kExpr (ts : List KTk) : Option KEx :=
  match kSum (8 * ts.length + 8) ts with
  | some (e, []) => some e
  | _ => none

/-- The target of an assignment. -/
def kAssign (ts : List KTk) : Option (Var × KEx) :=
  match ts with
  | .id s :: .sym '=' :: ts => (kExpr ts).map (fun e => (⟨s, none⟩, e))
  | .id s :: .sym o :: .num q _ :: .sym c :: .sym '=' :: ts =>
    if o = '(' ∧ c = ')' then do
      let j ← subscript q
      let e ← kExpr ts
      return (⟨s, some j⟩, e)
    else none
  | _ => none

/-! ### Forgetting the kinds gives the reading of `Rate/Lang.lean` -/

theorem kLex_erase : ∀ (n : Nat) (s : Str), (kLex n s).map (List.map KTk.erase) = lex .fortran n s := by
  intro n
  induction n with
  | zero => intro s; rfl
  | succ n ih =>
    intro s
    cases s with
    | nil => rfl
    | cons c s =>
      have lift : ∀ (u : Str) (k : KTk), ((kLex n u).map (k :: ·)).map (List.map KTk.erase) =
          (lex .fortran n u).map (k.erase :: ·) := by
        intro u k
        rw [← ih u, Option.map_map, Option.map_map]
        rfl
      rw [kLex, lex]
      split_ifs
      · exact ih s
      · exact lift _ _
      · exact lift _ _
      · exact lift _ _
      · exact lift _ _
      · exact lift _ _
      · rfl

abbrev erased (p : KEx × List KTk) : Ex × List Tk := (p.1.erase, p.2.map KTk.erase)

/-- The list does not start with the symbol. -/
def NoSym (c : Char) (ts : List KTk) : Prop := ∀ r, ts ≠ .sym c :: r

theorem NoSym.erase {c : Char} {ts : List KTk} (h : NoSym c ts) (r : List Tk) : ts.map KTk.erase ≠ .sym c :: r := by
  rcases ts with - | ⟨t, ts⟩
  · simp
  · cases t with
    | sym d =>
      intro e
      simp only [List.map_cons, KTk.erase, List.cons.injEq, Tk.sym.injEq] at e
      exact h ts (by rw [e.1])
    | _ => simp [KTk.erase]

theorem sym_cases (c : Char) (ts : List KTk) : (∃ r, ts = .sym c :: r) ∨ NoSym c ts := by
  by_cases h : ∃ r, ts = .sym c :: r
  · exact Or.inl h
  · exact Or.inr (fun r e => h ⟨r, e⟩)

theorem bind_erased (x : Option (KEx × List KTk)) (f : KEx × List KTk → Option (KEx × List KTk))
    (g : Ex × List Tk → Option (Ex × List Tk)) (h : ∀ p, (f p).map erased = g (erased p)) :
    (x.bind f).map erased = (x.map erased).bind g := by
  cases x with
  | none => rfl
  | some p => exact h p

theorem parse_erase : ∀ n : Nat,
    (∀ ts, (kSum n ts).map erased = parseSum .fortran n (ts.map KTk.erase)) ∧
    (∀ a ts, (kSumTail n a ts).map erased = sumTail .fortran n a.erase (ts.map KTk.erase)) ∧
    (∀ ts, (kProd n ts).map erased = parseProd .fortran n (ts.map KTk.erase)) ∧
    (∀ a ts, (kProdTail n a ts).map erased = prodTail .fortran n a.erase (ts.map KTk.erase)) ∧
    (∀ ts, (kUnary n ts).map erased = parseUnary .fortran n (ts.map KTk.erase)) ∧
    (∀ ts, (kPow n ts).map erased = parsePow .fortran n (ts.map KTk.erase)) ∧
    (∀ ts, (kAtom n ts).map erased = parseAtom .fortran n (ts.map KTk.erase)) := by
  intro n
  induction n with
  | zero =>
    exact ⟨fun _ => rfl, fun _ _ => rfl, fun _ => rfl, fun _ _ => rfl, fun _ => rfl, fun _ => rfl, fun _ => rfl⟩
  | succ n ih =>
    obtain ⟨h1, h2, h3, h4, h5, h6, h7⟩ := ih
    refine ⟨?_, ?_, ?_, ?_, ?_, ?_, ?_⟩
    · intro ts
      rcases sym_cases '-' ts with ⟨r, rfl⟩ | hm
      · rw [kSum, List.map_cons, KTk.erase, parseSum, ← h3]
        exact bind_erased _ _ _ (fun p => h2 (.neg p.1) p.2)
      · rcases sym_cases '+' ts with ⟨r, rfl⟩ | hp
        · rw [kSum, List.map_cons, KTk.erase, parseSum, ← h3]
          exact bind_erased _ _ _ (fun p => h2 p.1 p.2)
        · rw [kSum, parseSum, ← h3]
          · exact bind_erased _ _ _ (fun p => h2 p.1 p.2)
          · intro r _; exact hm.erase r
          · intro r _; exact hp.erase r
          · exact hm
          · exact hp
    · intro a ts
      rcases sym_cases '+' ts with ⟨r, rfl⟩ | hp
      · rw [kSumTail, List.map_cons, KTk.erase, sumTail, ← h3]
        exact bind_erased _ _ _ (fun p => h2 (.bin .add a p.1) p.2)
      · rcases sym_cases '-' ts with ⟨r, rfl⟩ | hm
        · rw [kSumTail, List.map_cons, KTk.erase, sumTail, ← h3]
          exact bind_erased _ _ _ (fun p => h2 (.bin .sub a p.1) p.2)
        · rw [kSumTail, sumTail]
          · rfl
          · exact hp.erase
          · exact hm.erase
          · exact hp
          · exact hm
    · intro ts
      rw [kProd, parseProd, if_pos rfl, ← h6]
      exact bind_erased _ _ _ (fun p => h4 p.1 p.2)
    · intro a ts
      rcases sym_cases '*' ts with ⟨r, rfl⟩ | hp
      · rw [kProdTail, List.map_cons, KTk.erase, prodTail, ← h5]
        exact bind_erased _ _ _ (fun p => h4 (.bin .mul a p.1) p.2)
      · rcases sym_cases '/' ts with ⟨r, rfl⟩ | hm
        · rw [kProdTail, List.map_cons, KTk.erase, prodTail, ← h5]
          exact bind_erased _ _ _ (fun p => h4 (.bin .div a p.1) p.2)
        · rw [kProdTail, prodTail]
          · rfl
          · exact hp.erase
          · exact hm.erase
          · exact hp
          · exact hm
    · intro ts
      rcases sym_cases '-' ts with ⟨r, rfl⟩ | hm
      · rw [kUnary, List.map_cons, KTk.erase, parseUnary, ← h5]
        exact bind_erased _ _ _ (fun p => rfl)
      · rcases sym_cases '+' ts with ⟨r, rfl⟩ | hp
        · rw [kUnary, List.map_cons, KTk.erase, parseUnary, ← h5]
        · rw [kUnary, parseUnary, ← h6]
          · exact hm.erase
          · exact hp.erase
          · exact hm
          · exact hp
    · intro ts
      rw [kPow, parsePow, ← h7]
      refine bind_erased _ _ _ (fun p => ?_)
      obtain ⟨a, ts⟩ := p
      rcases ts with - | ⟨t, ts⟩
      · rfl
      · cases t with
        | pow =>
          show ((kUnary n ts).bind _).map erased = (parseUnary .fortran n (ts.map KTk.erase)).bind _
          rw [← h5]
          exact bind_erased _ _ _ (fun p => rfl)
        | _ => rfl
    · intro ts
      have close : ∀ (x : Option (KEx × List KTk)) (f : KEx → KEx) (g : Ex → Ex), (∀ a, (f a).erase = g a.erase) →
          (x.bind (fun p => match p.2 with | .sym ')' :: ts => some (f p.1, ts) | _ => none)).map erased =
          (x.map erased).bind (fun p => match p.2 with | .sym ')' :: ts => some (g p.1, ts) | _ => none) := by
        intro x f g hfg
        refine bind_erased _ _ _ (fun p => ?_)
        obtain ⟨a, ts⟩ := p
        rcases sym_cases ')' ts with ⟨r, rfl⟩ | hc
        · show some (erased (f a, r)) = some (g a.erase, r.map KTk.erase)
          rw [erased, hfg]
        · dsimp only [erased]
          split
          · rename_i h; exact absurd rfl (hc _)
          · split
            · rename_i h; exact absurd h (hc.erase _)
            · rfl
      rcases ts with - | ⟨t, ts⟩
      · rfl
      · cases t with
        | num q k => rfl
        | pow => rfl
        | le => rfl
        | sym c =>
          by_cases hc : c = '('
          · subst hc
            rw [kAtom, List.map_cons, KTk.erase, parseAtom, ← h1]
            exact close (kSum n ts) id id (fun _ => rfl)
          · rw [kAtom, List.map_cons, KTk.erase, parseAtom]
            · rfl
            all_goals (intros; simp_all)
        | id s =>
          rcases hf : fnOf .fortran s with - | f
          · rcases ts with - | ⟨t1, - | ⟨t2, - | ⟨t3, ts⟩⟩⟩
            · simp [kAtom, parseAtom, hf, erased, KTk.erase, KEx.erase]
            · cases t1 <;> simp [kAtom, parseAtom, hf, erased, KTk.erase, KEx.erase]
            · cases t1 <;> cases t2 <;> simp [kAtom, parseAtom, hf, erased, KTk.erase, KEx.erase]
            · cases t1 <;> cases t2 <;> cases t3 <;> simp [kAtom, parseAtom, hf, erased, KTk.erase, KEx.erase]
              rename_i o q k c
              by_cases hoc : o = '(' ∧ c = ')'
              · rw [if_pos hoc, if_pos (by simpa [openOf, closeOf] using hoc)]
                cases subscript q <;> rfl
              · rw [if_neg hoc, if_neg (by simpa [openOf, closeOf] using hoc)]
                rfl
          · rcases sym_cases '(' ts with ⟨r, rfl⟩ | ho
            · have := close (kSum n r) (.call f) (.call f) (fun _ => rfl)
              rw [h1] at this
              simp only [kAtom, parseAtom, hf, KTk.erase, List.map_cons]
              exact this
            · rcases ts with - | ⟨t1, ts⟩
              · simp [kAtom, parseAtom, hf, KTk.erase]
              · cases t1 with
                | sym c =>
                  have hc : c ≠ '(' := fun h => ho ts (by rw [h])
                  simp only [kAtom, parseAtom, hf, KTk.erase, List.map_cons]
                  split
                  · rename_i h; simp_all
                  · split
                    · rename_i h; simp_all
                    · rfl
                    · rename_i h; simp_all
                    · rename_i h; simp_all
                  · rename_i h; simp_all
                  · rename_i h; simp_all
                | _ => simp [kAtom, parseAtom, hf, KTk.erase]

theorem kExpr_erase (ts : List KTk) : (kExpr ts).map KEx.erase = parseExpr .fortran (ts.map KTk.erase) := by
  have h := (parse_erase (8 * ts.length + 8)).1 ts
  unfold kExpr parseExpr
  rw [List.length_map, ← h]
  rcases kSum (8 * ts.length + 8) ts with - | ⟨e, - | ⟨t, r⟩⟩ <;> rfl

/-! ### Programs -/

inductive KStmt where
  | asg (v : Var) (e : KEx)
  | ifLe (a b : KEx) (t e : List (Var × KEx))
  deriving DecidableEq

def eraseAsg (p : Var × KEx) : Var × Ex := (p.1, p.2.erase)

def KStmt.erase : KStmt → Stmt
  | .asg v e => .asg v e.erase
  | .ifLe a b t e => .ifLe a.erase b.erase (t.map eraseAsg) (e.map eraseAsg)

def kLexLine (s : Str) : Option (List KTk) := kLex (s.length + 1) s

def kLine (s : Str) : Option (Var × KEx) := (kLexLine s).bind kAssign

/-- Split at the first `<=`. -/
def kSplitLe : List KTk → Option (List KTk × List KTk)
  | [] => none
  | .le :: ts => some ([], ts)
  | t :: ts => (kSplitLe ts).map (fun p => (t :: p.1, p.2))

/-- The condition of `if ( a <= b ) then`. -/
def kIf (s : Str) : Option (KEx × KEx) := do
  let ts ← kLexLine s
  let ts ← match ts with
    | .id w :: .sym '(' :: ts =>
      if w = "if".toList ∧ ts.drop (ts.length - 2) = [.sym ')', .id "then".toList] then
        some (ts.take (ts.length - 2)) else none
    | _ => none
  let (x, y) ← kSplitLe ts
  let x ← kExpr x
  let y ← kExpr y
  return (x, y)

/-- A line inside a branch. -/
def inBranch (m : Nat × Str) : Bool := !(m.2 == "else".toList || m.2 == "end if".toList)

/-- As `parseLines` for Fortran. -/
def kLines : Nat → List (Nat × Str) → Option (List KStmt)
  | 0, _ => none
  | _ + 1, [] => some []
  | n + 1, l :: ls =>
    if "if ".toList.isPrefixOf l.2 then do
      let (x, y) ← kIf l.2
      let t ← (ls.takeWhile inBranch).mapM (fun l => kLine l.2)
      match ls.dropWhile inBranch with
      | m :: ls =>
        if m.2 = "else".toList ∨ m.2 = "else:".toList then do
          let e ← (ls.takeWhile inBranch).mapM (fun l => kLine l.2)
          let rest ← kLines n (ls.dropWhile inBranch).tail
          return .ifLe x y t e :: rest
        else none
      | [] => none
    else match declaration l.2 with
    | some none => kLines n ls
    | some (some s) => do
      let (v, e) ← kLine s
      let rest ← kLines n ls
      return .asg v e :: rest
    | none => do
      let (v, e) ← kLine l.2
      let rest ← kLines n ls
      return .asg v e :: rest

/-- The statements of a Fortran rate file. -/
def kProgram (writes : List Str) : Option (List KStmt) :=
  kLines ((codeLines .fortran writes).length + 1) (codeLines .fortran writes)

/-- The statements of the fixed part. -/
def kRateProgram : List KStmt := (kProgram fortranWrites).getD []

/-- The expression a converted rate text stands for. -/
def kRead (text : Str) : Option KEx := (kLexLine (lower text)).bind kExpr

theorem kLexLine_erase (s : Str) : (kLexLine s).map (List.map KTk.erase) = lexLine .fortran s := kLex_erase _ s

theorem kRead_erase (text : Str) : (kRead text).map KEx.erase = readExpr .fortran text := by
  unfold kRead readExpr
  rw [if_pos rfl, ← kLexLine_erase]
  cases kLexLine (lower text) with
  | none => rfl
  | some ts => exact kExpr_erase ts

/-! ### Values -/

inductive KVal where
  | int (z : ℤ)
  | real (p : Prec) (x : ℝ)

def KVal.toReal : KVal → ℝ
  | .int z => z
  | .real _ x => x

/-- Default integers have 32 bits. -/
def Fits (z : ℤ) : Prop := -2 ^ 31 ≤ z ∧ z < 2 ^ 31

instance (z : ℤ) : Decidable (Fits z) := by unfold Fits; infer_instance

/-- Integer operations; division cuts off the remainder, also in a negative power. -/
def intOp : Op → ℤ → ℤ → Option ℤ
  | .add, a, b => some (a + b)
  | .sub, a, b => some (a - b)
  | .mul, a, b => some (a * b)
  | .div, a, b => if b = 0 then none else some (a.tdiv b)
  | .pow, a, b => if 0 ≤ b then some (a ^ b.toNat) else if a = 0 then none
      else some ((1 : ℤ).tdiv (a ^ (-b).toNat))

noncomputable def Op.val : Op → ℝ → ℝ → ℝ
  | .add, x, y => x + y
  | .sub, x, y => x - y
  | .mul, x, y => x * y
  | .div, x, y => x / y
  | .pow, x, y => x ^ y

/-- The operation has a finite value; as in `Ex.Ok`. -/
def Op.Ok : Op → ℝ → ℝ → Prop
  | .div, _, y => y ≠ 0
  | .pow, x, y => 0 < x ∨ (x = 0 ∧ 0 ≤ y) ∨ ∃ n : ℤ, y = n ∧ x ≠ 0
  | _, _, _ => True

/-- Bits of the significand. -/
def Prec.bits : Prec → Nat
  | .single => 24
  | .double => 53

/-- A number that the precision represents exactly (not all of them: the exponent is kept small). -/
def Exact (p : Prec) (q : ℚ) : Prop := ∃ m e : ℤ, |m| ≤ 2 ^ p.bits ∧ |e| ≤ 100 ∧ q = m * 2 ^ e

/-- How an exact result may be rounded to a result of some precision. -/
abbrev Rounding := Prec → ℝ → ℝ → Prop

/-- No rounding at all. -/
def exactly : Rounding := fun _ x y => y = x

/-- Rounding of IEEE arithmetic. Single precision: half a unit in the last of 24 bits, below the normal range half of
the spacing `2^-149`, above the range anything. Double precision: one unit in the last of 53 bits, which library
functions keep to as well; its range is taken to be unlimited. -/
def ieee : Rounding
  | .single, x, y => |x| ≤ 10 ^ 38 → |y - x| ≤ 2⁻¹ ^ 24 * |x| + 2⁻¹ ^ 150
  | .double, x, y => |y - x| ≤ 2⁻¹ ^ 52 * |x|

/-- The precision of an operation on two numbers, if it is not one on integers. -/
def common : KVal → KVal → Option Prec
  | .int _, .int _ => none
  | .int _, .real p _ => some p
  | .real p _, .int _ => some p
  | .real .double _, .real _ _ => some .double
  | .real .single _, .real p _ => some p

/-- Conversion of an operand to the precision of the operation. -/
def Convert (R : Rounding) (p : Prec) : KVal → ℝ → Prop
  | .int z, x => R p z x ∧ (|z| ≤ 2 ^ p.bits → x = z)
  | .real _ y, x => x = y

/-- The second operand; integer exponents are not converted. -/
def ConvertRight (R : Rounding) (p : Prec) : Op → KVal → ℝ → Prop
  | .pow, .int z, x => x = z
  | _, v, x => Convert R p v x

/-- The function takes and gives floating-point numbers. -/
def Fn.floating : Fn → Bool
  | .trunc => false
  | .floor => false
  | _ => true

/-- `r` is a value the expression may have when variables have the values `env` and operations are
rounded by `R`. All variables are declared `REAL(8)`. (`trunc` is the `int` of Python, whose integers have no bound.) -/
inductive Ev (R : Rounding) (env : Vals) : KEx → KVal → Prop
  | int {q : ℚ} {z : ℤ} : q = z → Fits z → Ev R env (.num q .int) (.int z)
  | lit {q : ℚ} {p : Prec} {x : ℝ} : R p q x → (Exact p q → x = q) →
      Ev R env (.num q (.real p)) (.real p x)
  | var (v : Var) : Ev R env (.var v) (.real .double (env v))
  | negInt {a : KEx} {z : ℤ} : Ev R env a (.int z) → Fits (-z) → Ev R env (.neg a) (.int (-z))
  | negReal {a : KEx} {p : Prec} {x : ℝ} : Ev R env a (.real p x) → Ev R env (.neg a) (.real p (-x))
  | binInt {o : Op} {a b : KEx} {x y z : ℤ} : Ev R env a (.int x) → Ev R env b (.int y) →
      intOp o x y = some z → Fits z → Ev R env (.bin o a b) (.int z)
  | binReal {o : Op} {a b : KEx} {v w : KVal} {p : Prec} {x y z : ℝ} : Ev R env a v → Ev R env b w →
      common v w = some p → Convert R p v x → ConvertRight R p o w y → o.Ok x y → R p (o.val x y) z →
      Ev R env (.bin o a b) (.real p z)
  | call {f : Fn} {a : KEx} {p : Prec} {x y : ℝ} : f.floating = true → Ev R env a (.real p x) → f.Ok x →
      R p (f.val x) y → Ev R env (.call f a) (.real p y)
  | absInt {a : KEx} {z : ℤ} : Ev R env a (.int z) → Fits |z| → Ev R env (.call .abs a) (.int |z|)
  | floor {a : KEx} {p : Prec} {x : ℝ} : Ev R env a (.real p x) → Fits ⌊x⌋ →
      Ev R env (.call .floor a) (.int ⌊x⌋)
  | trunc {a : KEx} {p : Prec} {x : ℝ} : Ev R env a (.real p x) →
      Ev R env (.call .trunc a) (.int (if 0 ≤ x then ⌊x⌋ else ⌈x⌉))

/-- Assignments one after the other. -/
inductive EvAsgs (R : Rounding) : Vals → List (Var × KEx) → Vals → Prop
  | nil (env : Vals) : EvAsgs R env [] env
  | cons {env env' : Vals} {v : Var} {e : KEx} {r : KVal} {l : List (Var × KEx)} : Ev R env e r →
      EvAsgs R (Function.update env v r.toReal) l env' → EvAsgs R env ((v, e) :: l) env'

/-- One statement. -/
inductive EvStmt (R : Rounding) : Vals → KStmt → Vals → Prop
  | asg {env : Vals} {v : Var} {e : KEx} {r : KVal} : Ev R env e r →
      EvStmt R env (.asg v e) (Function.update env v r.toReal)
  | yes {env env' : Vals} {a b : KEx} {t e : List (Var × KEx)} {x y : KVal} : Ev R env a x → Ev R env b y →
      x.toReal ≤ y.toReal → EvAsgs R env t env' → EvStmt R env (.ifLe a b t e) env'
  | no {env env' : Vals} {a b : KEx} {t e : List (Var × KEx)} {x y : KVal} : Ev R env a x → Ev R env b y →
      ¬ x.toReal ≤ y.toReal → EvAsgs R env e env' → EvStmt R env (.ifLe a b t e) env'

/-- A program. -/
inductive EvRun (R : Rounding) : Vals → List KStmt → Vals → Prop
  | nil (env : Vals) : EvRun R env [] env
  | cons {env env' env'' : Vals} {s : KStmt} {p : List KStmt} : EvStmt R env s env' → EvRun R env' p env'' →
      EvRun R env (s :: p) env''

end Rl
end PyBox
