import Verif.Peg.Core

/-!
# The part of `std::regex` (ECMAScript grammar, `icase`) used by `/repo/src/Query/Query.cxx`

`std::regex` belongs to the C++ standard library, not to `/repo`; this file is its assumed
semantics: a backtracking matcher that explores alternatives in priority order, leftmost match
first, captures of the first successful path.  Loops occur only over single characters, so the
matcher is structurally recursive.
-/

namespace Adql

/-- Regular expressions, as far as needed. -/
inductive Re where
  /-- the empty expression -/
  | eps
  /-- one character of a class -/
  | chr (f : Char → Bool)
  | seq (p q : Re)
  /-- `p|q`, `p` first -/
  | alt (p q : Re)
  /-- `c*` greedy -/
  | many (f : Char → Bool)
  /-- `c*?` lazy -/
  | manyLazy (f : Char → Bool)
  /-- `(p)`, capture number `i` -/
  | grp (i : Nat) (p : Re)
  /-- `(?=p)` -/
  | look (p : Re)
  /-- `$` : the end of the input -/
  | eoi

/-- Captured texts; group `i` is unmatched when absent. -/
abbrev Caps := List (Nat × Str)

/-- Greedy loop over a character class: longest first. -/
def loopG {R : Type} (f : Char → Bool) (k : Str → Option R) : Str → Option R
  | [] => k []
  | c :: s =>
    if f c then
      match loopG f k s with
      | some r => some r
      | none => k (c :: s)
    else k (c :: s)

/-- Lazy loop over a character class: shortest first. -/
def loopL {R : Type} (f : Char → Bool) (k : Str → Option R) : Str → Option R
  | [] => k []
  | c :: s =>
    match k (c :: s) with
    | some r => some r
    | none => if f c then loopL f k s else none

/-- The matcher, in continuation-passing style. -/
def Re.run {R : Type} : Re → Str → Caps → (Str → Caps → Option R) → Option R
  | .eps, s, c, k => k s c
  | .chr f, s, c, k =>
    match s with
    | [] => none
    | d :: r => if f d then k r c else none
  | .seq p q, s, c, k => p.run s c (fun s' c' => q.run s' c' k)
  | .alt p q, s, c, k =>
    match p.run s c k with
    | some r => some r
    | none => q.run s c k
  | .many f, s, c, k => loopG f (fun r => k r c) s
  | .manyLazy f, s, c, k => loopL f (fun r => k r c) s
  | .grp i p, s, c, k =>
    p.run s c (fun r c' => k r ((i, s.take (s.length - r.length)) :: c'))
  | .look p, s, c, k =>
    match p.run s c (fun _ _ => some ()) with
    | some _ => k s c
    | none => none
  | .eoi, s, c, k =>
    match s with
    | [] => k s c
    | _ :: _ => none

/-- A match found by `std::regex_search`: the text before it, the matched text and what follows,
and the captures. -/
structure Match where
  pre : Str
  whole : Str
  post : Str
  caps : Caps
deriving DecidableEq, Repr

/-- `match.str(i)` (empty when the group did not take part). -/
def Match.str (m : Match) (i : Nat) : Str :=
  if i = 0 then m.whole else ((m.caps.lookup i).getD [])

/-- `std::regex_search` : leftmost position first. -/
def Re.search (p : Re) (pre : Str) : Str → Option Match
  | [] => (p.run [] [] fun r c => some (r, c)).map fun x => ⟨pre, [], x.1, x.2⟩
  | d :: s =>
    match p.run (d :: s) [] fun r c => some (r, c) with
    | some (r, c) => some ⟨pre, (d :: s).take ((d :: s).length - r.length), r, c⟩
    | none => p.search (pre ++ [d]) s

/-! ### Building blocks with the flag `icase` -/

/-- one literal character under `icase` -/
def Re.ci (c : Char) : Re := .chr (fun d => lowerC d == lowerC c)
/-- a literal word under `icase` -/
def Re.word : Str → Re
  | [] => .eps
  | c :: w => .seq (.ci c) (Re.word w)
/-- `.` : anything but a line terminator -/
def reDot (c : Char) : Bool := c != '\n' && c != '\r'
/-- `[^ ]` -/
def reNonBlank (c : Char) : Bool := c != ' '
/-- `␣*` -/
def Re.blanks : Re := .many (· == ' ')
/-- sequence of several expressions -/
def Re.cat : List Re → Re
  | [] => .eps
  | [p] => p
  | p :: ps => .seq p (Re.cat ps)
/-- choice of several expressions -/
def Re.any : List Re → Re
  | [] => .chr (fun _ => false)
  | [p] => p
  | p :: ps => .alt p (Re.any ps)

/-- The ECMAScript replacement format of `std::match_results::format` (libstdc++): `$$`, `$&`,
`` $` ``, `$'`, `$n`, `$nn`; a group number that does not exist expands to nothing; any other `$`
is literal.  `size` is the number of groups including group 0. -/
def fmtExpand (m : Match) (size : Nat) : Str → Str
  | [] => []
  | c :: s =>
    if c != '$' then c :: fmtExpand m size s
    else match s with
      | [] => ['$']
      | d :: r =>
        if d == '$' then '$' :: fmtExpand m size r
        else if d == '&' then m.whole ++ fmtExpand m size r
        else if d == '`' then m.pre ++ fmtExpand m size r
        else if d == '\'' then m.post ++ fmtExpand m size r
        else if d.isDigit then
          match r with
          | e :: r' =>
            if e.isDigit then
              let n := (d.toNat - 48) * 10 + (e.toNat - 48)
              (if n < size then m.str n else []) ++ fmtExpand m size r'
            else
              let n := d.toNat - 48
              (if n < size then m.str n else []) ++ fmtExpand m size (e :: r')
          | [] =>
            let n := d.toNat - 48
            if n < size then m.str n else []
        else '$' :: fmtExpand m size (d :: r)

end Adql
