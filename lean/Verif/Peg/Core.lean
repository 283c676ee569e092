import Lean.Elab.Tactic.Basic

/-!
# A model of the Boost.Spirit Qi combinators used by `ADQL_parser`

The grammar of libadql is written with Boost.Spirit Qi (`/repo/src/Query/ADQL_parser.hxx`
L40-L43 : a `qi::grammar` over `std::string::const_iterator` with the
`ascii::space_type` skipper).  Boost itself is a dependency and not part of `/repo`; this file
is the *assumed* semantics of the Qi operators the grammar uses.  It is a deep embedding, so
that facts about "every rule" are proved once, by induction over parser expressions.
-/

namespace Adql

/-- `std::string`.  A C++ `char` is represented by the `Char` with the same code; the theorems
quantify over arbitrary `Char`s, which include all byte values. -/
abbrev Str := List Char

/-- `boost::spirit::ascii::space` (and `qi::space`): blank, `\t`, `\n`, `\v`, `\f`, `\r`. -/
def isSpace (c : Char) : Bool :=
  c == ' ' || (9 ≤ c.toNat && c.toNat ≤ 13)

/-- Case folding used by `ascii::no_case` : only ASCII letters are folded. -/
def lowerC (c : Char) : Char :=
  if 65 ≤ c.toNat && c.toNat ≤ 90 then Char.ofNat (c.toNat + 32) else c

/-- Exceptions that leave the parser. -/
inductive Err where
  /-- `qi::expectation_failure`: the component `what` did not match at `rest`
  (turned into a parse failure with a message by `on_error<fail>`, init_query.cxx L137-L143). -/
  | expect (what : String) (rest : Str)
  /-- the `std::runtime_error` of `checked_mapping`, init_column_reference.cxx L6-L13. -/
  | noTable (name : Str)
deriving DecidableEq, Repr

/-- Result of running a parser.  `oof` ("out of fuel") stands for a run that does not end:
it is what a Kleene star over a body that succeeds without consuming would produce.  The
termination theorem shows that it never occurs. -/
inductive Res (α : Type) where
  | ok (a : α) (rest : Str)
  | fail
  | err (e : Err)
  | oof
deriving Repr, DecidableEq

/-- Outcome of a semantic check applied to an attribute. -/
inductive Out (β : Type) where
  | ok (b : β)
  | fail
  /-- throws `Err.noTable name` -/
  | throw (name : Str)

/-- Qi parser expressions.  `A n` is the attribute type of the (recursive) rule `n`. -/
inductive P {N : Type} (A : N → Type) : Type → Type 1 where
  /-- `eps` with attribute / `qi::attr(a)` -/
  | pure {α : Type} (a : α) : P A α
  /-- a single character satisfying `f` (`char_`, `digit`, character sets, differences of
  character parsers); pre-skips -/
  | chr (f : Char → Bool) : P A Char
  /-- literal string (`lit`, `ascii::string`, `no_case[...]` when `ci`); pre-skips; the
  attribute is the text as written in the input -/
  | lit (ci : Bool) (w : Str) : P A Str
  /-- `p >> q` -/
  | seq {α β : Type} (p : P A α) (q : P A β) : P A (α × β)
  /-- `p | q` : ordered choice; once `p` succeeded `q` is never tried -/
  | alt {α : Type} (p q : P A α) : P A α
  /-- `*p` -/
  | star {α : Type} (p : P A α) : P A (List α)
  /-- `!p` -/
  | notP {α : Type} (p : P A α) : P A Unit
  /-- `&p` -/
  | andP {α : Type} (p : P A α) : P A α
  /-- a non-first operand of `>` : failure throws `expectation_failure` -/
  | expect {α : Type} (what : String) (p : P A α) : P A α
  /-- attribute propagation -/
  | map {α β : Type} (f : α → β) (p : P A α) : P A β
  /-- semantic check / action that may fail the parse or throw -/
  | act {α β : Type} (f : α → Out β) (p : P A α) : P A β
  /-- `lexeme[p]`, and also the call of a rule that has no skipper: pre-skip, then parse `p`
  without skipping -/
  | lexeme {α : Type} (p : P A α) : P A α
  /-- `no_skip[p]` : parse without skipping and without pre-skip -/
  | noskip {α : Type} (p : P A α) : P A α
  /-- call of the recursive rule `n` -/
  | nt (n : N) : P A (A n)

/-- Pre-skip: performed by primitive parsers when a skipper is active. -/
def skip (sk : Bool) (s : Str) : Str :=
  if sk then s.dropWhile isSpace else s

/-- Match the literal `w` at the start of `s`; returns the matched text and the rest. -/
def matchLit (ci : Bool) : Str → Str → Option (Str × Str)
  | [], s => some ([], s)
  | _ :: _, [] => none
  | c :: w, d :: s =>
    if c == d || (ci && lowerC c == lowerC d) then
      match matchLit ci w s with
      | some (t, r) => some (d :: t, r)
      | none => none
    else none

/-- The loop of `*p`.  The first argument bounds the number of iterations and is taken larger
than the length of the input; an iteration that succeeds without consuming would make the C++
loop forever, here it yields `oof`. -/
def starLoop {α : Type} (f : Str → Res α) : Nat → Str → Res (List α)
  | 0, _ => .oof
  | n + 1, s =>
    match f s with
    | .ok a r =>
      if r.length < s.length then
        match starLoop f n r with
        | .ok as r' => .ok (a :: as) r'
        | .fail => .fail
        | .err e => .err e
        | .oof => .oof
      else .oof
    | .fail => .ok [] s
    | .err e => .err e
    | .oof => .oof

/-- One level of parsing: `rec` runs the recursive rules. -/
def step {N : Type} {A : N → Type} (rec : (n : N) → Bool → Str → Res (A n)) :
    {α : Type} → P A α → Bool → Str → Res α
  | _, .pure a, _, s => .ok a s
  | _, .chr f, sk, s =>
    match skip sk s with
    | [] => .fail
    | c :: r => if f c then .ok c r else .fail
  | _, .lit ci w, sk, s =>
    match matchLit ci w (skip sk s) with
    | some (t, r) => .ok t r
    | none => .fail
  | _, .seq p q, sk, s =>
    match step rec p sk s with
    | .ok a r =>
      match step rec q sk r with
      | .ok b r' => .ok (a, b) r'
      | .fail => .fail
      | .err e => .err e
      | .oof => .oof
    | .fail => .fail
    | .err e => .err e
    | .oof => .oof
  | _, .alt p q, sk, s =>
    match step rec p sk s with
    | .ok a r => .ok a r
    | .fail => step rec q sk s
    | .err e => .err e
    | .oof => .oof
  | _, .star p, sk, s => starLoop (fun t => step rec p sk t) (s.length + 1) s
  | _, .notP p, sk, s =>
    match step rec p sk s with
    | .ok _ _ => .fail
    | .fail => .ok () s
    | .err e => .err e
    | .oof => .oof
  | _, .andP p, sk, s =>
    match step rec p sk s with
    | .ok a _ => .ok a s
    | .fail => .fail
    | .err e => .err e
    | .oof => .oof
  | _, .expect what p, sk, s =>
    match step rec p sk s with
    | .ok a r => .ok a r
    | .fail => .err (.expect what s)
    | .err e => .err e
    | .oof => .oof
  | _, .map f p, sk, s =>
    match step rec p sk s with
    | .ok a r => .ok (f a) r
    | .fail => .fail
    | .err e => .err e
    | .oof => .oof
  | _, .act f p, sk, s =>
    match step rec p sk s with
    | .ok a r =>
      match f a with
      | .ok b => .ok b r
      | .fail => .fail
      | .throw n => .err (.noTable n)
    | .fail => .fail
    | .err e => .err e
    | .oof => .oof
  | _, .lexeme p, sk, s => step rec p false (skip sk s)
  | _, .noskip p, _, s => step rec p false s
  | _, .nt n, sk, s => rec n sk s

/-- Run the rules of grammar `g` with a bound on the depth of rule calls. -/
def run {N : Type} {A : N → Type} (g : (n : N) → P A (A n)) :
    Nat → (n : N) → Bool → Str → Res (A n)
  | 0, _, _, _ => .oof
  | f + 1, n, sk, s => step (run g f) (g n) sk s

/-! ### Derived combinators -/
namespace P
variable {N : Type} {A : N → Type} {α β : Type}

/-- `-p` for an attribute that is not a container. -/
def opt (p : P A α) : P A (Option α) := alt (map some p) (pure none)
/-- `-p` whose absent value is `d` (e.g. a default-constructed member). -/
def optD (d : α) (p : P A α) : P A α := alt p (pure d)
/-- `+p` -/
def plus (p : P A α) : P A (List α) := map (fun x => x.1 :: x.2) (seq p (star p))
/-- `p >> q`, keeping only the attribute of `p` (the other one has none). -/
def seqL (p : P A α) (q : P A β) : P A α := map Prod.fst (seq p q)
/-- `p >> q`, keeping only the attribute of `q`. -/
def seqR (p : P A α) (q : P A β) : P A β := map Prod.snd (seq p q)
/-- `p % sep` -/
def sepBy (p : P A α) (sep : P A β) : P A (List α) :=
  map (fun x => x.1 :: x.2) (seq p (star (seqR sep p)))
/-- `p - q` -/
def diff (p : P A α) (q : P A β) : P A α := seqR (notP q) p

end P

/-- Character list literal, expanded at elaboration time. -/
syntax:max "cs!" str : term
open Lean in
macro_rules
  | `(cs! $s:str) => do
    let cs := s.getString.toList.map fun c => Syntax.mkCharLit c
    let cs : Array (TSyntax `term) := cs.toArray.map fun x => ⟨x.raw⟩
    `(([$cs,*] : List Char))

open Lean Meta Elab Tactic in
/-- `kernel_rfl` closes `a = b` by `Eq.refl`, leaving the comparison to the kernel (the elaborator
is much slower at evaluating the large literal tables of the grammar). -/
elab "kernel_rfl" : tactic => do
  liftMetaTactic fun g => do
    let t ← instantiateMVars (← g.getType)
    match t.eq? with
    | some (_, a, _) =>
      g.assign (← mkEqRefl a)
      return []
    | none => throwError "kernel_rfl: not an equation"

end Adql
