import Verif.Model.FaithfulQuery

/-!
# C16, C17, C38: the formatted query and the text it was parsed from
-/

namespace Adql

open Spec

/-! ### C16 -/

/-- **C16.** The formatted query consists of the tokens of the text, in the same order, except for
the differences listed in `Edit`. -/
theorem C16_faithful (cfg : Config) (fmt : Str → Str) (hM : ∀ y, cfg.Mapped y → y ≠ []) (input : Str)
    (q : QuerySpec) (h : construct cfg input = .ok q) :
    ∃ s t b, preprocess input = .ok s ∧ s = t ++ b ∧ Blanks b ∧
      Shows (env cfg fmt) t (q.print fmt) b := by
  unfold construct at h
  cases hp : preprocess input with
  | error e => rw [hp] at h; cases h
  | ok s =>
    rw [hp] at h
    obtain ⟨b, hb, hs⟩ := parseIt_ok.1 h
    obtain ⟨t, ht, hsh⟩ := parse_shows (fmt := fmt) hM (se_query hM) hb
    exact ⟨s, t, b, rfl, ht, hs, hsh⟩

theorem oneMap_ne : ∀ y, oneMap.Mapped y → y ≠ [] := by
  rintro y ⟨x, h⟩
  simp only [oneMap] at h
  split at h
  · cases h; simp
  · cases h

/-- **C16**, non-trivial case: the text is accepted, so the theorem applies to it. -/
example : ∃ q, construct oneMap richText = .ok q ∧ ∃ s t b, preprocess richText = .ok s ∧
    s = t ++ b ∧ Blanks b ∧ Shows (env oneMap id) t (q.print id) b := by
  obtain ⟨q, hq⟩ := richText_accepted
  exact ⟨q, hq, C16_faithful _ _ oneMap_ne _ _ hq⟩

/-! Texts without any of the constructs that are rewritten. -/

/-- The words that announce something that is rewritten. -/
def Spec.rewritten : List Str :=
  [cs!"AS", cs!"WITH", cs!"TOP", cs!"TAP_UPLOAD", cs!"table", cs!"POINT", cs!"CIRCLE", cs!"BOX",
   cs!"ELLIPSE", cs!"POLYGON", cs!"CONTAINS", cs!"INTERSECTS"]

/-- Two lists of tokens of the same length, where each token is kept or is a keyword that is
formatted in upper case. -/
inductive Spec.Kept : List Str → List Str → Prop
  | nil : Kept [] []
  | keep {x l l'} : Kept l l' → Kept (x :: l) (x :: l')
  | case {x w l l'} : w ∈ keywords → SameCI x w → Kept l l' → Kept (x :: l) (w :: l')

theorem Kept.append {l l' m m' : List Str} (h : Kept l l') (h' : Kept m m') : Kept (l ++ m) (l' ++ m') := by
  induction h with
  | nil => exact h'
  | keep _ ih => exact .keep ih
  | case hw hx _ ih => exact .case hw hx ih

theorem call_word {g : List Str} (h : Call g) : ∃ x ∈ g, OneOf rewritten x := by
  obtain ⟨c, m, rfl, hc⟩ := h
  exact ⟨c, by simp, OneOf.mono hc (by simp [rewritten])⟩

theorem geometric_word {g : List Str} (h : Geometric g) : ∃ x ∈ g, OneOf rewritten x := by
  obtain ⟨c, hc, h⟩ := h
  obtain ⟨x, hx, ho⟩ := call_word hc
  rcases h with rfl | ⟨f, -, rfl | rfl⟩
  · exact ⟨x, hx, ho⟩
  · exact ⟨x, by simp [hx], ho⟩
  · exact ⟨x, by simp [hx], ho⟩

/-- Without those words nothing is rewritten. -/
theorem edit_plain {e : Env} {l l' : List Str} (h : Edit e l l') (hr : e.residue = false)
    (hl : ∀ x ∈ l, ¬ OneOf rewritten x) : Kept l l' := by
  have one : ∀ {x w : Str} {l : List Str}, w ∈ rewritten → SameCI x w → x ∈ l →
      ¬ ∀ x ∈ l, ¬ OneOf rewritten x := fun hw hx hm h => h _ hm ⟨_, hw, hx⟩
  induction h with
  | nil => exact .nil
  | keep => exact .keep .nil
  | case hw hx => exact .case hw hx .nil
  | append _ _ ih1 ih2 =>
    refine Kept.append ?_ ?_
    · exact ih1 fun x hx => hl x (by simp [hx])
    · exact ih2 fun x hx => hl x (by simp [hx])
  | dropAs h _ => exact absurd hl (one (by simp [rewritten]) h (by simp))
  | addAs h _ => exact absurd hl (one (by simp [rewritten]) h (by simp))
  | addAsCols h _ _ => exact absurd hl (one (by simp [rewritten]) h (by simp))
  | top h _ _ _ _ _ => exact absurd hl (one (by simp [rewritten]) h (by simp))
  | noTop _ _ h _ _ => exact absurd hl (one (by simp [rewritten]) h (by simp))
  | upload h => exact absurd hl (one (w := cs!"TAP_UPLOAD") (x := cs!"TAP_UPLOAD") (by simp [rewritten]) rfl (by simp))
  | negate h _ => rw [hr] at h; cases h
  | table h _ _ => exact absurd hl (one (by simp [rewritten]) h (by simp))
  | table0 h _ _ => exact absurd hl (one (by simp [rewritten]) h (by simp))
  | shape hm h _ _ =>
    exact absurd hl (one (by simp [rewritten] at hm ⊢; rcases hm with h | h | h | h | h <;> simp [h]) h (by simp))
  | flagLeft _ _ hc _ =>
    obtain ⟨x, hx, ho⟩ := call_word hc; exact absurd ho (hl x (by simp [hx]))
  | flagNone _ hc _ =>
    obtain ⟨x, hx, ho⟩ := call_word hc; exact absurd ho (hl x (by simp [hx]))
  | geomParen _ hg _ =>
    obtain ⟨x, hx, ho⟩ := geometric_word hg; exact absurd ho (hl x (by simp [hx]))

/-- Letters in lower case, blanks left out. -/
def Spec.fold (s : Str) : Str := (s.filter fun c => !isSpace c).map lowerC

theorem fold_append (s t : Str) : fold (s ++ t) = fold s ++ fold t := by simp [fold]

theorem fold_blanks {b : Str} (h : Blanks b) : fold b = [] := by
  simp only [fold, List.map_eq_nil_iff, List.filter_eq_nil_iff]
  intro c hc; simp [h c hc]

theorem isSpace_lowerC (c : Char) : isSpace (lowerC c) = isSpace c := by
  rw [Bool.eq_iff_iff, isSpace_iff, isSpace_iff, lowerC_toNat]
  split <;> omega

theorem fold_sameCI {x w : Str} (h : SameCI x w) : fold x = fold w := by
  have key : ∀ s : Str, fold s = (s.map lowerC).filter fun c => !isSpace c := by
    intro s
    simp only [fold, List.filter_map, Function.comp_def, isSpace_lowerC]
  rw [key, key, h]

theorem fold_reads {t : Str} {l : List Str} {r : Str} (h : Reads t l r) : fold t = fold l.flatten := by
  induction h with
  | nil hb => simp [fold_blanks hb]; rfl
  | cons hb _ _ _ ih => simp only [fold_append, fold_blanks hb, List.flatten_cons, ih, List.nil_append]

theorem fold_laid {t : Str} {l : List Str} (h : Laid t l) : fold t = fold l.flatten := by
  induction h with
  | nil hb => simp [fold_blanks hb]; rfl
  | cons hb _ _ ih => simp only [fold_append, fold_blanks hb, List.flatten_cons, ih, List.nil_append]

theorem fold_kept {l l' : List Str} (h : Kept l l') : fold l.flatten = fold l'.flatten := by
  induction h with
  | nil => rfl
  | keep _ ih => simp only [List.flatten_cons, fold_append, ih]
  | case _ hx _ ih => simp only [List.flatten_cons, fold_append, ih, fold_sameCI hx]

theorem reads_infix {t : Str} {l : List Str} {r : Str} (h : Reads t l r) : ∀ x ∈ l, x <:+: t := by
  induction h with
  | nil => simp
  | @cons b x t l r _ _ _ _ ih =>
    intro y hy
    rcases List.mem_cons.1 hy with rfl | hy
    · exact ⟨b, t, by simp⟩
    · exact (ih y hy).trans ⟨b ++ x, [], by simp⟩

/-- **C16.** What `Shows` means for a text without any of the words of `rewritten`: the formatted
text has the same characters, up to blanks and letter case. -/
theorem C16_plain {e : Env} {t u r : Str} (hs : Shows e t u r) (hr : e.residue = false)
    (ht : ∀ x, x <:+: t → ¬ OneOf rewritten x) : fold u = fold t := by
  obtain ⟨l, l', h1, h2, h3⟩ := hs
  rw [fold_laid h3, fold_reads h1, fold_kept (edit_plain h2 hr fun x hx => ht x (reads_infix h1 x hx))]

/-- no part of `t` is one of the words -/
def noPart (ws : List Str) : Str → Bool
  | [] => ws.all fun w => !w.isEmpty
  | c :: t => (ws.all fun w => ((c :: t).take w.length).map lowerC != w.map lowerC) && noPart ws t

theorem noPart_iff {ws : List Str} {t : Str} (h : noPart ws t = true) :
    ∀ x, x <:+: t → ¬ OneOf ws x := by
  rintro x ⟨a, b, rfl⟩ ⟨w, hw, hx⟩
  induction a with
  | nil =>
    cases hxb : ([] ++ x ++ b : Str) with
    | nil =>
      simp only [List.append_eq_nil_iff, List.nil_append] at hxb
      rw [hxb.1, hxb.2] at h
      have := List.all_eq_true.1 h w hw
      rw [hxb.1] at hx
      cases w with
      | nil => simp at this
      | cons => simp [SameCI] at hx
    | cons c t =>
      rw [hxb] at h
      simp only [noPart, Bool.and_eq_true, List.all_eq_true] at h
      have := h.1 w hw
      rw [← hxb, ← sameCI_length hx] at this
      simp only [List.nil_append, List.take_left, bne_iff_ne, ne_eq] at this
      exact this hx
  | cons c a ih =>
    simp only [List.cons_append, noPart, Bool.and_eq_true] at h
    exact ih h.2

/-- `Shows` refuses another column, a lost or an additional column, another order, a lost WHERE
clause, lost parentheses and a doubled quantifier. -/
example (e : Env) (hr : e.residue = false) (u r : Str)
    (hu : u ∈ [cs!"SELECT b,c FROM t WHERE (d=1)", cs!"SELECT b FROM t WHERE (d=1)",
      cs!"SELECT c FROM t WHERE (d=1)", cs!"SELECT b,c,c FROM t WHERE (d=1)",
      cs!"SELECT DISTINCT b,c FROM t WHERE (d=1)", cs!"SELECT c,b FROM t", cs!"SELECT c,b FROM t WHERE d=1",
      cs!"SELECT c,b FROM t WHERE (d>1)"]) :
    ¬ Shows e cs!"select  c, b from t where (d = 1)" u r := by
  intro h
  have := C16_plain h hr (noPart_iff (by decide +kernel))
  simp only [List.mem_cons, List.not_mem_nil, or_false] at hu
  rcases hu with rfl | rfl | rfl | rfl | rfl | rfl | rfl | rfl <;> exact absurd this (by decide +kernel)

/-- ... and for the text itself the formatted query is the expected one. -/
example : constructPrint ⟨fun _ => none, false⟩ id cs!"select  c, b from t where (d = 1)" =
    .ok cs!"SELECT c, b FROM t WHERE (d = 1)" := by kernel_rfl

/-! ### C17 -/

/-- The weight of a text. -/
def Spec.weigh (v : Char → Int) (s : Str) : Int := (s.map v).sum

/-- A weight that does not see letters, digits, underscores, blanks, dots, quotes, commas, `=` and
signs, and where a pair of parentheses weighs nothing. -/
structure Spec.Weight (v : Char → Int) : Prop where
  word : ∀ c, IdChar c → v c = 0
  blank : ∀ c, isSpace c = true → v c = 0
  other : ∀ c ∈ cs!".',=+-", v c = 0
  parens : v '(' + v ')' = 0

section
variable {v : Char → Int}

theorem weigh_append (s t : Str) : weigh v (s ++ t) = weigh v s + weigh v t := by simp [weigh]
theorem weigh_cons (c : Char) (t : Str) : weigh v (c :: t) = v c + weigh v t := by simp [weigh]
theorem weigh_nil : weigh v [] = 0 := rfl

theorem weigh_zero {s : Str} (h : ∀ c ∈ s, v c = 0) : weigh v s = 0 := by
  induction s with
  | nil => rfl
  | cons c t ih =>
    rw [weigh_cons, h c (by simp), ih fun c hc => h c (by simp [hc])]; rfl

theorem weight_lower (hv : Weight v) (c : Char) : v (lowerC c) = v c := by
  by_cases h : isIdChar c = true
  · rw [hv.word _ (isIdChar_iff.1 h), hv.word _ (isIdChar_iff.1 (by rw [isIdChar_lowerC]; exact h))]
  · have : lowerC c = c := by
      unfold lowerC
      split
      · next h' =>
        refine absurd ?_ h
        simp only [Bool.and_eq_true, decide_eq_true_eq] at h'
        simp [isIdChar, isLetter, h']
      · rfl
    rw [this]

theorem weigh_sameCI (hv : Weight v) {x w : Str} (h : SameCI x w) : weigh v x = weigh v w := by
  have key : ∀ s : Str, weigh v s = ((s.map lowerC).map v).sum := by
    intro s; simp only [weigh, List.map_map, Function.comp_def, weight_lower hv]
  rw [key, key, h]

theorem weigh_word (hv : Weight v) {w : Str} (h : w.all isIdChar = true) : weigh v w = 0 :=
  weigh_zero fun c hc => hv.word c (isIdChar_iff.1 (List.all_eq_true.1 h c hc))

theorem weigh_blanks (hv : Weight v) {b : Str} (h : Blanks b) : weigh v b = 0 :=
  weigh_zero fun c hc => hv.blank c (h c hc)

theorem weigh_digits (hv : Weight v) {d : Str} (h : Digits d) : weigh v d = 0 :=
  weigh_zero fun c hc => hv.word c (.inr (.inl (h.2 c hc)))

theorem weigh_pq (hv : Weight v) {d : Str} (h : PQName d) : weigh v d = 0 := by
  obtain ⟨c, t, rfl, hc, ht⟩ := h
  refine weigh_zero fun d hd => ?_
  rcases List.mem_cons.1 hd with rfl | hd
  · exact hv.word _ (.inl hc)
  · rcases ht d hd with h | rfl
    · exact hv.word _ h
    · exact hv.other _ (by simp)

theorem weigh_reads (hv : Weight v) {t : Str} {l : List Str} {r : Str} (h : Reads t l r) :
    weigh v t = weigh v l.flatten := by
  induction h with
  | nil hb => simp [weigh_blanks hv hb]; rfl
  | cons hb _ _ _ ih => simp [weigh_append, weigh_blanks hv hb, ih]

theorem weigh_laid (hv : Weight v) {t : Str} {l : List Str} (h : Laid t l) :
    weigh v t = weigh v l.flatten := by
  induction h with
  | nil hb => simp [weigh_blanks hv hb]; rfl
  | cons hb _ _ ih => simp [weigh_append, weigh_blanks hv hb, ih]

theorem weigh_unsigned (hv : Weight v) {x : Str} (h : Unsigned x) : weigh v x = 0 := by
  have hd : v '.' = 0 := hv.other _ (by simp)
  cases h with
  | int h => exact weigh_digits hv h
  | dot h => simp [weigh_append, weigh_cons, weigh_nil, weigh_digits hv h, hd]
  | dec h h' => simp [weigh_append, weigh_cons, weigh_digits hv h, weigh_digits hv h', hd]
  | frac h => simp [weigh_cons, weigh_digits hv h, hd]

theorem weigh_expo (hv : Weight v) {x : Str} (h : Expo x) : weigh v x = 0 := by
  have hE : v 'E' = 0 := hv.word _ (isIdChar_iff.1 (by decide))
  have he : v 'e' = 0 := hv.word _ (isIdChar_iff.1 (by decide))
  have hp : v '+' = 0 := hv.other _ (by simp)
  have hm : v '-' = 0 := hv.other _ (by simp)
  cases h with
  | mk h h' => rcases h with rfl | rfl <;> simp [weigh_cons, weigh_digits hv h', hE, he]
  | signed h g h' =>
    rcases h with rfl | rfl <;> rcases g with rfl | rfl <;>
      simp [weigh_cons, weigh_digits hv h', hE, he, hp, hm]

theorem weigh_magnitude (hv : Weight v) {x : Str} (h : Magnitude x)
    (hn : ∀ y, y <:+: x → ¬ SameCI y cs!"nan(") : weigh v x = 0 := by
  cases h with
  | plain h => exact weigh_unsigned hv h
  | expo h h' => simp [weigh_append, weigh_unsigned hv h, weigh_expo hv h']
  | inf h =>
    obtain ⟨w, hw, hx⟩ := h
    rw [weigh_sameCI hv hx]
    simp only [List.mem_cons, List.not_mem_nil, or_false] at hw
    rcases hw with rfl | rfl <;> exact weigh_word hv (by decide)
  | nan h => rw [weigh_sameCI hv h]; exact weigh_word hv (by decide)
  | @nanArg x u h _ =>
    refine absurd ?_ (hn (x ++ ['(']) ⟨[], u ++ [')'], by simp⟩)
    exact sameCI_append (c := ['(']) (d := ['(']) h rfl

theorem weigh_number (hv : Weight v) {x : Str} (h : Number x)
    (hn : ∀ y, y <:+: x → ¬ SameCI y cs!"nan(") : weigh v x = 0 := by
  have hp : v '+' = 0 := hv.other _ (by simp)
  have hm : v '-' = 0 := hv.other _ (by simp)
  cases h with
  | plain h => exact weigh_magnitude hv h hn
  | plus h =>
    rw [weigh_cons, weigh_magnitude hv h fun y hy => hn y (hy.trans (List.suffix_cons _ _).isInfix), hp]; rfl
  | minus h =>
    rw [weigh_cons, weigh_magnitude hv h fun y hy => hn y (hy.trans (List.suffix_cons _ _).isInfix), hm]; rfl

/-- what is assumed about the tokens -/
structure Even (v : Char → Int) (e : Env) : Prop where
  mapped : ∀ x y, e.mapped x y → weigh v y = weigh v x
  fmt : ∀ x, Number x → weigh v (e.fmt x) = 0

theorem weigh_col (hv : Weight v) {e : Env} (he : Even v e) {l l' : List Str} (h : ColEdit e l l') :
    weigh v l.flatten = weigh v l'.flatten := by
  have hd : v '.' = 0 := hv.other _ (by simp)
  cases h with
  | keep => rfl
  | upload hm _ =>
    have : weigh v cs!"TAP_UPLOAD" = 0 := weigh_word hv (by decide)
    simp only [List.flatten_cons, weigh_append, weigh_cons, weigh_nil, hd, this, he.mapped _ _ hm]; omega

theorem weigh_coord (hv : Weight v) {e : Env} (he : Even v e) {l l' : List Str} (h : CoordEdit e l l')
    (hn : ∀ x ∈ l, ∀ y, y <:+: x → ¬ SameCI y cs!"nan(") : weigh v l.flatten = weigh v l'.flatten := by
  cases h with
  | col h => exact weigh_col hv he h
  | num h => simp [weigh_number hv h (hn _ (by simp)), he.fmt _ h]
  | op h h' _ =>
    simp [weigh_append, weigh_number hv h (hn _ (by simp)), weigh_number hv h' (hn _ (by simp)),
      he.fmt _ h, he.fmt _ h']

theorem weigh_coords (hv : Weight v) {e : Env} (he : Even v e) {l l' : List Str} (h : CoordsEdit e l l')
    (hn : ∀ x ∈ l, ∀ y, y <:+: x → ¬ SameCI y cs!"nan(") : weigh v l.flatten = weigh v l'.flatten := by
  induction h with
  | one h => exact weigh_coord hv he h hn
  | cons h _ ih =>
    have h1 := weigh_coord hv he h fun x hx => hn x (by simp [hx])
    have h2 := ih fun x hx => hn x (by simp [hx])
    simp only [List.flatten_append, List.flatten_cons, weigh_append] at *
    omega

theorem weigh_sysQuoted (hv : Weight v) {x f : Str} (h : SysQuoted x f) :
    weigh v x = 0 ∧ weigh v f = 0 := by
  obtain ⟨b₁, y, b₂, p, b₃, rfl, h1, h2, h3, hp, hf⟩ := h
  have hq : v '\'' = 0 := hv.other _ (by simp)
  have hp' : weigh v p = 0 := by
    rcases hp with rfl | hp
    · rfl
    · rw [weigh_sameCI hv hp]; exact weigh_word hv (by decide)
  have hf' : weigh v f = 0 ∧ weigh v y = 0 := by
    have : weigh v f = 0 := by
      rcases hf with ⟨hf, -⟩ | ⟨-, rfl⟩
      · simp only [List.mem_cons, List.not_mem_nil, or_false] at hf
        rcases hf with rfl | rfl | rfl <;> exact weigh_word hv (by decide)
      · exact weigh_word hv (by decide)
    refine ⟨this, ?_⟩
    rcases hf with ⟨-, hy⟩ | ⟨rfl, -⟩
    · rw [weigh_sameCI hv hy, this]
    · rfl
  refine ⟨?_, hf'.1⟩
  simp [weigh_cons, weigh_append, weigh_nil, hq, hp', hf'.2, weigh_blanks hv h1, weigh_blanks hv h2,
    weigh_blanks hv h3]

theorem weigh_sys (hv : Weight v) {l l' : List Str} (h : SysEdit l l') :
    weigh v l.flatten = weigh v l'.flatten := by
  have hq : v '\'' = 0 := hv.other _ (by simp)
  have hc : v ',' = 0 := hv.other _ (by simp)
  have hs : v ' ' = 0 := hv.blank _ (by decide)
  have hG : weigh v cs!"GEOCENTER" = 0 := weigh_word hv (by decide)
  have hI : weigh v cs!"ICRS" = 0 := weigh_word hv (by decide)
  simp only [weigh_cons] at hG hI
  cases h with
  | none =>
    simp only [List.flatten_cons, List.flatten_nil, weigh_append, weigh_cons, weigh_nil, hq, hc, hs] at *
    omega
  | some h =>
    have := weigh_sysQuoted hv h
    simp only [List.flatten_cons, List.flatten_nil, weigh_append, weigh_cons, weigh_nil, hq, hc, hs,
      this.1, this.2] at *
    omega

theorem weigh_args (hv : Weight v) {l l' : List Str} (h : ArgsEdit l l') :
    weigh v l.flatten = weigh v l'.flatten := by
  induction h with
  | one hb ha hb' =>
    simp [weigh_append, weigh_cons, weigh_nil, weigh_blanks hv hb, weigh_blanks hv hb', weigh_pq hv ha]
  | cons hb ha hb' _ ih =>
    simp only [List.flatten_cons, weigh_append, weigh_cons, weigh_nil, weigh_blanks hv hb, weigh_blanks hv hb',
      weigh_pq hv ha, ih]; omega

theorem weigh_edit (hv : Weight v) {e : Env} (he : Even v e) {l l' : List Str} (h : Edit e l l')
    (hn : ∀ x ∈ l, ∀ y, y <:+: x → ¬ SameCI y cs!"nan(") : weigh v l.flatten = weigh v l'.flatten := by
  have hq : v '\'' = 0 := hv.other _ (by simp)
  have hd : v '.' = 0 := hv.other _ (by simp)
  have heq : v '=' = 0 := hv.other _ (by simp)
  have hAS : weigh v cs!"AS" = 0 := weigh_word hv (by decide)
  have hWITH : weigh v cs!"WITH" = 0 := weigh_word hv (by decide)
  have hTOP : weigh v cs!"TOP" = 0 := weigh_word hv (by decide)
  have hTAP : weigh v cs!"TAP_UPLOAD" = 0 := weigh_word hv (by decide)
  have hNOT : weigh v cs!"NOT" = 0 := weigh_word hv (by decide)
  have hWHERE : weigh v cs!"WHERE" = 0 := weigh_word hv (by decide)
  have hone : v '1' = 0 := hv.word _ (isIdChar_iff.1 (by decide))
  have hpar := hv.parens
  induction h with
  | nil => rfl
  | keep => rfl
  | case hw hx => simp [weigh_sameCI hv hx]
  | append _ _ ih1 ih2 =>
    have h1 := ih1 fun x hx => hn x (by simp [hx])
    have h2 := ih2 fun x hx => hn x (by simp [hx])
    simp only [List.flatten_append, weigh_append, h1, h2]
  | dropAs h _ => simp only [List.flatten_cons, weigh_append, weigh_sameCI hv h, hAS]; omega
  | addAs h _ =>
    simp only [List.flatten_cons, List.flatten_nil, weigh_append, weigh_sameCI hv h, hAS, weigh_nil]; omega
  | addAsCols h _ _ =>
    simp only [List.flatten_cons, List.flatten_append, List.flatten_nil, weigh_append, weigh_sameCI hv h, hAS, weigh_nil]; omega
  | top h h1 h2 _ _ _ =>
    simp only [List.flatten_cons, List.flatten_nil, weigh_append, weigh_sameCI hv h, weigh_nil, weigh_digits hv h1,
      weigh_digits hv h2]
  | noTop hk hq h h1 _ =>
    simp only [List.flatten_cons, List.flatten_append, weigh_sameCI hv hk, List.flatten_nil, weigh_append, weigh_sameCI hv h, weigh_nil, weigh_digits hv h1, hTOP]; omega
  | upload h =>
    simp only [List.flatten_cons, List.flatten_nil, weigh_append, weigh_cons, weigh_nil, hTAP, hd, he.mapped _ _ h]; omega
  | negate _ h => simp only [List.flatten_cons, List.flatten_nil, weigh_append, weigh_sameCI hv h, hNOT, weigh_nil]; omega
  | table h _ h' =>
    simp only [List.flatten_cons, List.flatten_append, List.flatten_nil, weigh_append, weigh_sameCI hv h, weigh_args hv h']
  | table0 h _ hb =>
    simp only [List.flatten_cons, List.flatten_nil, weigh_append, weigh_cons, weigh_nil, weigh_sameCI hv h, weigh_blanks hv hb, hq]; omega
  | shape _ h hy hl =>
    simp only [List.flatten_cons, List.flatten_append, List.flatten_nil, weigh_append, weigh_sameCI hv h, weigh_sys hv hy,
      weigh_coords hv he hl fun x hx => hn x (by simp [hx])]
  | flagLeft h _ _ _ ih =>
    have := ih fun x hx => hn x (by simp [hx])
    simp only [List.flatten_cons, List.flatten_append, List.flatten_nil, weigh_append, weigh_sameCI hv h, this, weigh_nil]; omega
  | flagNone h _ _ ih =>
    have := ih fun x hx => hn x (by simp [hx])
    simp only [List.flatten_cons, List.flatten_append, List.flatten_nil, weigh_append, weigh_sameCI hv h, this, weigh_nil,
      weigh_cons, heq, hone]; omega
  | geomParen _ _ _ ih =>
    have := ih fun x hx => hn x (by simp at hx ⊢; rcases hx with h | h <;> simp [h])
    simp only [List.flatten_cons, List.flatten_append, List.flatten_nil, weigh_append, weigh_nil,
      weigh_cons] at this ⊢; omega

end

/-- **C17** (general form). Every weight is the same for the parsed text and the formatted query. -/
theorem C17_weights_partial (cfg : Config) (fmt : Str → Str) (hM : ∀ y, cfg.Mapped y → y ≠ [])
    (v : Char → Int) (hv : Weight v) (hmap : ∀ x y, cfg.mapping x = some y → weigh v y = weigh v x)
    (hfmt : ∀ x, Number x → weigh v (fmt x) = 0) (input s : Str) (q : QuerySpec)
    (hs : preprocess input = .ok s) (hnan : ∀ y, y <:+: s → ¬ SameCI y cs!"nan(")
    (h : construct cfg input = .ok q) : weigh v (q.print fmt) = weigh v s := by
  obtain ⟨s', t, b, h1, rfl, hb, l, l', hr, he, hl⟩ := C16_faithful cfg fmt hM input q h
  rw [hs] at h1
  cases h1
  rw [weigh_append, weigh_blanks hv hb, weigh_laid hv hl, weigh_reads hv hr, Int.add_zero]
  refine (weigh_edit hv ⟨hmap, hfmt⟩ he fun x hx y hy => hnan y ?_).symm
  exact (hy.trans (reads_infix hr x hx)).trans ⟨[], b, by simp⟩

/-- the weight that counts one character -/
def one (c : Char) (d : Char) : Int := if d = c then 1 else 0

theorem weigh_one (c : Char) (s : Str) : weigh (one c) s = s.count c := by
  induction s with
  | nil => rfl
  | cons d t ih =>
    rw [weigh_cons, ih, List.count_cons]
    by_cases h : d = c <;> simp [one, h]; omega

/-- The characters that are neither in words nor in `.',=+-()` nor blanks. -/
def Spec.Rare (c : Char) : Prop := ¬ IdChar c ∧ isSpace c = false ∧ c ∉ cs!".',=+-()"

theorem weight_one {c : Char} (h : Rare c) : Weight (one c) := by
  obtain ⟨h1, h2, h3⟩ := h
  refine ⟨fun d hd => ?_, fun d hd => ?_, fun d hd => ?_, ?_⟩ <;> unfold one
  · rw [if_neg]; rintro rfl; exact h1 hd
  · rw [if_neg]; rintro rfl; rw [hd] at h2; cases h2
  · rw [if_neg]; rintro rfl; exact h3 (by simp at hd ⊢; rcases hd with h | h | h | h | h | h <;> simp [h])
  · rw [if_neg, if_neg]; · rfl
    · rintro rfl; simp at h3
    · rintro rfl; simp at h3

/-- **C17.** The formatted query has as many `*` (or `[`, `]`, `/`, `<`, `>`, `!`, `|`, `"`, ...) as
the text that was parsed, if the mapping keeps their number, numbers are formatted without them,
and no not-a-number with an argument is used.

Full statement (false, see `C17_nan` and `C17_mapped`): the same without the last two hypotheses
about the text and with a mapping whose names contain no `*`. -/
theorem C17_stars_partial (cfg : Config) (fmt : Str → Str) (hM : ∀ y, cfg.Mapped y → y ≠ [])
    (c : Char) (hc : Rare c) (hmap : ∀ x y, cfg.mapping x = some y → y.count c = x.count c)
    (hfmt : ∀ x, Number x → c ∉ fmt x) (input s : Str) (q : QuerySpec)
    (hs : preprocess input = .ok s) (hnan : ∀ y, y <:+: s → ¬ SameCI y cs!"nan(")
    (h : construct cfg input = .ok q) : (q.print fmt).count c = s.count c := by
  have := C17_weights_partial cfg fmt hM (one c) (weight_one hc)
    (fun x y h => by rw [weigh_one, weigh_one, hmap x y h])
    (fun x hx => by rw [weigh_one, List.count_eq_zero_of_not_mem (hfmt x hx)]; rfl) input s q hs hnan h
  rw [weigh_one, weigh_one] at this
  exact Int.ofNat.inj this

/-- the weight of a nesting level -/
def level (d : Char) : Int := if d = '(' then 1 else if d = ')' then -1 else 0

/-- **C17.** The formatted query has as many opening minus closing parentheses as the text. -/
theorem C17_levels_partial (cfg : Config) (fmt : Str → Str) (hM : ∀ y, cfg.Mapped y → y ≠ [])
    (hmap : ∀ x y, cfg.mapping x = some y → weigh level y = weigh level x)
    (hfmt : ∀ x, Number x → weigh level (fmt x) = 0) (input s : Str) (q : QuerySpec)
    (hs : preprocess input = .ok s) (hnan : ∀ y, y <:+: s → ¬ SameCI y cs!"nan(")
    (h : construct cfg input = .ok q) : weigh level (q.print fmt) = weigh level s := by
  refine C17_weights_partial cfg fmt hM level ⟨fun c hc => ?_, fun c hc => ?_, fun c hc => ?_, rfl⟩
    hmap hfmt input s q hs hnan h
  · unfold level
    rw [if_neg, if_neg]
    · rintro rfl; exact absurd (isIdChar_iff.2 hc) (by decide)
    · rintro rfl; exact absurd (isIdChar_iff.2 hc) (by decide)
  · unfold level
    rw [if_neg, if_neg]
    · rintro rfl; exact absurd hc (by decide)
    · rintro rfl; exact absurd hc (by decide)
  · simp only [List.mem_cons, List.not_mem_nil, or_false] at hc
    rcases hc with rfl | rfl | rfl | rfl | rfl | rfl <;> rfl

theorem rare_star : Rare '*' :=
  ⟨fun h => absurd (isIdChar_iff.2 h) (by decide), by decide, by decide⟩

/-- **C17**, non-trivial case. -/
example : ∃ q s, construct oneMap richText = .ok q ∧ preprocess richText = .ok s ∧
    (q.print fun _ => cs!"0.5").count '*' = s.count '*' ∧ s.count '*' = 3 := by
  obtain ⟨q, hq⟩ := richText_accepted
  obtain ⟨s, t, b, hs, -⟩ := C16_faithful _ id oneMap_ne _ _ hq
  have hs' : preprocess richText = .ok richText := by kernel_rfl
  rw [hs] at hs'; cases hs'
  refine ⟨q, _, hq, hs, ?_, by decide +kernel⟩
  refine C17_stars_partial oneMap _ oneMap_ne '*' rare_star ?_ (by simp) _ _ q hs
    (fun y hy hn => noPart_iff (ws := [cs!"nan("]) (by decide +kernel) y hy ⟨_, by simp, hn⟩) hq
  intro x y h
  simp only [oneMap] at h
  split at h
  · next h' => cases h; rw [h']; rfl
  · cases h

/-- **C17** is violated by not-a-number with an argument: a star of the text is not formatted. -/
theorem C17_nan : constructPrint ⟨fun _ => none, false⟩ (fun _ => cs!"nan")
    cs!"SELECT c FROM t WHERE CONTAINS(POINT('ICRS',-nan(*),d),p)=1" =
      .ok cs!"SELECT c FROM t WHERE CONTAINS(POINT('ICRS GEOCENTER',nan,d),p)=1" := by kernel_rfl

/-- **C17** is violated by uploaded tables whose delimited name has a star. -/
theorem C17_mapped : constructPrint ⟨fun _ => some cs!"t", false⟩ id cs!"SELECT c FROM TAP_UPLOAD.\"*\"" =
    .ok cs!"SELECT c FROM t" := by kernel_rfl

/-! ### C38 -/

/-- The texts of the list, one after the other, say the same as the parts of `t`. -/
inductive Spec.InOrder (e : Env) : Str → List Str → Str → Prop
  | nil {r} : InOrder e [] [] r
  | cons {t t' u us r} : Shows e t u (t' ++ r) → InOrder e t' us r → InOrder e (t ++ t') (u :: us) r

theorem inOrder_star {I : (n : Rule) → Bool → Str → Attr n → Str → Prop} {e : Env} {α : Type} {p : G α}
    {f : α → Str} (hp : SE I e p f) {sk : Bool} {t r : Str} {l : List α}
    (h : sem I (.star p) sk t l r) : InOrder e t (l.map f) r := by
  simp only [sem] at h
  induction h with
  | nil => exact .nil
  | cons h _ ih => exact .cons (hp _ _ _ _ h) ih

/-- **C38.** A join is read as a table and one or more suffixes; the formatted table is followed by
the formatted suffixes, all in the order of the text. -/
theorem C38_order (cfg : Config) (fmt : Str → Str) (hM : ∀ y, cfg.Mapped y → y ≠ []) (sk : Bool)
    (s r : Str) (head : QJHead) (ss : List JoinSuffix)
    (h : parse cfg qualifiedJoin sk s = .ok (.mk head ss) r) :
    ∃ t₀ t, s = t₀ ++ (t ++ r) ∧ ss ≠ [] ∧ Shows (env cfg fmt) t₀ (head.print fmt) (t ++ r) ∧
      InOrder (env cfg fmt) t (ss.map (JoinSuffix.print fmt)) r ∧
      (QJ.mk head ss).print fmt = head.print fmt ++ cs!" " ++
        (ss.map fun x => x.print fmt ++ cs!" ").flatten := by
  obtain ⟨t, rfl, ht⟩ := step_sem (I := KInv cfg fmt)
    (fun n sk s a r h => den_sem (kinv_rules hM) n sk s a r h) _ _ _ _ _ h
  obtain ⟨⟨a, l⟩, he, t₁, t₂, rfl, h1, h2⟩ := ht
  cases he
  obtain ⟨⟨a, l⟩, rfl, t₃, t₄, rfl, h3, h4⟩ := h2
  refine ⟨t₁, t₃ ++ t₄, by simp, by simp, ?_, ?_, ?_⟩
  · have hh : SE (KInv cfg fmt) (env cfg fmt) (.alt (.map (fun j => .jt (.wrap j)) parenJoined) (.map .tc tableCorrelation))
        (QJHead.print fmt) :=
      .alt (se_parenJoined.map fun x => by simp [QJHead.print, JT.print])
        (se_tableCorrelation.map fun x => by simp [QJHead.print])
    exact hh _ _ _ _ h1
  · exact .cons (se_joinSuffix hM _ _ _ _ h3) (inOrder_star (se_joinSuffix hM) h4)
  · simp only [QJ.print]
    congr 1
    generalize a :: l = l
    induction l with
    | nil => rfl
    | cons x l ih => simp [printSuffixes, ih]

/-- **C38.** A join in parentheses: the parentheses are read once and formatted once, around the
join inside them. -/
theorem C38_parens (cfg : Config) (fmt : Str → Str) (hM : ∀ y, cfg.Mapped y → y ≠ []) (sk : Bool)
    (s r : Str) (j : JT) (h : parse cfg parenJoined sk s = .ok j r) :
    ∃ b t b', s = b ++ ('(' :: (t ++ (b' ++ (')' :: r)))) ∧ Blanks b ∧ Blanks b' ∧
      Shows (env cfg fmt) t (j.print fmt) (b' ++ (')' :: r)) ∧
      (JT.wrap j).print fmt = '(' :: (j.print fmt ++ [')']) := by
  obtain ⟨t, rfl, ht⟩ := step_sem (I := KInv cfg fmt)
    (fun n sk s a r h => den_sem (kinv_rules hM) n sk s a r h) _ _ _ _ _ h
  obtain ⟨⟨x, j'⟩, rfl, t₁, t₂, rfl, ⟨b, rfl, hb, hx⟩, ⟨j'', y⟩, rfl, t₃, t₄, rfl, h3, b', rfl, hb', hy⟩ := ht
  cases (litOK_cs.1 hx)
  cases (litOK_cs.1 hy)
  refine ⟨b, t₃, b', by simp, hb.1, hb'.1, ?_, by simp [JT.print]⟩
  have := (se_jt (cfg := cfg) (fmt := fmt)) _ _ _ _ h3
  simpa [ShowsBy, Shows] using this

/-- **C38.** A joined table says the same as the text it was parsed from. -/
theorem C38_faithful (cfg : Config) (fmt : Str → Str) (hM : ∀ y, cfg.Mapped y → y ≠ []) (sk : Bool)
    (s r : Str) (j : JT) (h : parse cfg jt sk s = .ok j r) :
    ∃ t, s = t ++ r ∧ Shows (env cfg fmt) t (j.print fmt) r := parse_shows hM se_jt h

/-- the parse succeeds -/
def okRes {α : Type} : Res α → Bool
  | .ok _ _ => true
  | _ => false

theorem okRes_iff {α : Type} {x : Res α} (h : okRes x = true) : ∃ a r, x = .ok a r := by
  cases x with
  | ok a r => exact ⟨a, r, rfl⟩
  | _ => simp [okRes] at h

/-- **C38**, non-trivial case: nested joins in parentheses. -/
example : ∃ j r, parse oneMap parenJoined true cs!" (( t JOIN u ) NATURAL JOIN v LEFT JOIN w USING (k)) x" =
    .ok j r := okRes_iff (by kernel_rfl)

example : ∃ j r, parse oneMap qualifiedJoin true cs!" ( t JOIN u ) NATURAL JOIN v LEFT JOIN w USING (k) x" =
    .ok j r := okRes_iff (by kernel_rfl)

/-- ... and how it is formatted inside a query. -/
example : constructPrint oneMap id cs!"SELECT a FROM (( t JOIN u ) NATURAL JOIN v LEFT JOIN w USING (k))" =
    .ok cs!"SELECT a FROM ((t  JOIN u ) NATURAL  JOIN v LEFT JOIN w USING (k)  )" := by kernel_rfl

end Adql
