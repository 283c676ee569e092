import Verif.Model.AcceptLit

/-!
# Running the grammar forward: functions
-/

namespace Adql.Fwd

open P Spec

variable {cfg : Config} {sk : Bool}

/-! ### What follows -/

theorem tok_nil {w : Str} : Tok w w := ⟨[], blanks_nil, rfl⟩

theorem tok_drop {w s r : Str} {c : Char} {t : Str} (h : Tok w s) (hw : w = c :: t)
    (hc : isSpace c = false) : (s ++ r).dropWhile isSpace = w ++ r := by
  obtain ⟨b, hb, rfl⟩ := h
  rw [List.append_assoc]
  have h1 := skip_blanks (s := w ++ r) hb
  have h2 : skip true (w ++ r) = w ++ r := skip_bare (by rw [hw]; exact bare_cons hc)
  rw [h2] at h1
  exact h1

/-- A token of punctuation ends an operand. -/
theorem primEnd_tok {c : Char} {w s r : Str} (h : Tok (c :: w) s)
    (hc : (!isSpace c && !isIdChar c && !("(.'\":".toList.contains c)) = true) : PrimEnd (s ++ r) := by
  simp only [Bool.and_eq_true, Bool.not_eq_true'] at hc
  obtain ⟨⟨h1, h2⟩, h3⟩ := hc
  refine ⟨tok_notContinued h rfl h2, ?_⟩
  rw [tok_next h rfl h1]
  intro hm
  simp only [List.mem_cons, Option.some.injEq, List.not_mem_nil, or_false] at hm
  rcases hm with rfl | rfl | rfl | rfl | rfl <;> exact absurd h3 (by decide)

theorem noComment_of {r : Str} (h : next r ≠ some '-') : NoComment r := by
  rintro ⟨t, ht⟩
  exact h (by rw [next, ht]; rfl)

theorem exprEnd_noComment {r : Str} (h : ExprEnd r) : NoComment r := noComment_of fun e => h.2 (by rw [e]; simp)

/-- Such a token ends an expression unless it is an operator or a bracket. -/
theorem exprEnd_tok {c : Char} {w s r : Str} (h : Tok (c :: w) s)
    (hc : (!isSpace c && !isIdChar c && !("(.'\":-[*/+|".toList.contains c)) = true) :
    ExprEnd (s ++ r) := by
  have hc' := hc
  simp only [Bool.and_eq_true, Bool.not_eq_true'] at hc
  obtain ⟨⟨h1, h2⟩, h3⟩ := hc
  refine ⟨⟨primEnd_tok h ?_, ?_⟩, ?_⟩
  · simp only [h1, h2, Bool.not_false, Bool.true_and, Bool.not_eq_true']
    rw [List.contains_eq_mem, decide_eq_false_iff_not] at h3 ⊢
    intro hm; exact h3 (by
      have : ∀ x ∈ "(.'\":".toList, x ∈ "(.'\":-[*/+|".toList := by decide
      exact this c hm)
  · rw [tok_next h rfl h1]
    rintro ⟨⟩; exact absurd h3 (by decide)
  · rw [tok_next h rfl h1]
    intro hm
    simp only [List.mem_cons, Option.some.injEq, List.not_mem_nil, or_false] at hm
    rcases hm with rfl | rfl | rfl | rfl | rfl <;> exact absurd h3 (by decide)

theorem close_end {s r : Str} (h : Tok cs!")" s) : ExprEnd (s ++ r) := exprEnd_tok h (by decide)
theorem comma_end {s r : Str} (h : Tok cs!"," s) : ExprEnd (s ++ r) := exprEnd_tok h (by decide)
theorem bracket_end {s r : Str} (h : Tok cs!"]" s) : ExprEnd (s ++ r) := exprEnd_tok h (by decide)

theorem primEnd_col {r : Str} (h : PrimEnd r) : ColEnd r := by
  refine ⟨h.1, fun e => h.2 ?_, fun e => h.2 ?_⟩ <;> rw [e] <;> simp

theorem primEnd_str {r : Str} (h : PrimEnd r) (hc : NoComment r) : StrEnd r := by
  refine ⟨fun e => h.2 ?_, hc⟩
  rw [e]; simp

theorem primEnd_ne {r : Str} (h : PrimEnd r) {c : Char} (hc : c ∈ "(.'\":".toList) : next r ≠ some c := by
  intro e
  apply h.2
  rw [e]
  simp only [List.mem_cons, Option.some.injEq, List.not_mem_nil, or_false]
  have : "(.'\":".toList = ['(', '.', '\'', '"', ':'] := rfl
  rw [this] at hc
  simpa using hc

/-! ### No function starts here -/

/-- the names of functions (init_trig.cxx, init_math.cxx, init_factor.cxx,
init_non_predicate_geometry_function.cxx) -/
def fnWords : List Str :=
  trig1 ++ (cs!"ATAN2" :: fn0) ++ fn1 ++ fn2 ++ [cs!"CAST", cs!"COORD1", cs!"COORD2", cs!"DISTANCE"]

theorem fnHead_fail {ws : List Str} {u : Str} (hu : Bare u) (h : ∀ w ∈ ws, Apart w u) :
    parse cfg (fnHead (.lexeme (anyKw ws))) sk u = .fail := by
  apply seqL_fail
  rw [lexeme_bare hu]
  exact stuck_seqL_fail (stuck_lexeme hu (stuck_anyKw hu h)) fun c v hc => andNonId_idChar hc

theorem fnHead_fail1 {w : Str} {u : Str} (hu : Bare u) (h : Apart w u) :
    parse cfg (fnHead (kw w)) sk u = .fail := by
  apply seqL_fail
  rw [lexeme_bare hu]
  exact stuck_seqL_fail (stuck_kw hu h) fun c v hc => andNonId_idChar hc

theorem fnHead_fail2 {w : Str} {u : Str} (hu : Bare u) (h : Apart w u) :
    parse cfg (fnHead (.lexeme (kw w))) sk u = .fail := by
  apply seqL_fail
  rw [lexeme_bare hu]
  exact stuck_seqL_fail (stuck_lexeme hu (stuck_kw hu h)) fun c v hc => andNonId_idChar hc

theorem names_fail {ws : List Str} {u : Str} (hu : Bare u) (h : ∀ w ∈ ws, Apart w u) :
    parse cfg (seqL (.lexeme (anyKw ws)) (sym cs!"(")) true u = .fail :=
  stuck_seqL_fail (stuck_lexeme hu (stuck_anyKw hu h)) fun _ _ hc => sym_idChar hc (by decide)

theorem trig_fail {u : Str} (hu : Bare u) (h : ∀ w ∈ cs!"ATAN2" :: trig1, Apart w u) :
    parse cfg trigFunction true u = .fail := by
  apply alt_fail
  · exact map_fail (seq_fail (fnHead_fail hu fun w hw => h w (by simp only [List.mem_cons]; exact .inr hw)))
  · exact map_fail (seq_fail (fnHead_fail1 hu (h _ (by simp))))

theorem math_fail {u : Str} (hu : Bare u) (h0 : ∀ w ∈ fn0, Apart w u) (h1 : ∀ w ∈ fn1, Apart w u)
    (h2 : ∀ w ∈ fn2, Apart w u) : parse cfg mathFunction true u = .fail := by
  apply alt_fail
  · exact map_fail (seqL_fail (names_fail hu h0))
  · apply alt_fail
    · exact map_fail (seq_fail (names_fail hu h1))
    · exact map_fail (seq_fail (names_fail hu h2))

theorem cast_fail {u : Str} (hu : Bare u) (h : Apart cs!"CAST" u) :
    parse cfg castFunction true u = .fail :=
  map_fail (seqR_fail (stuck_seqR_fail (stuck_kw hu h) fun _ _ hc => sym_idChar hc (by decide)))

theorem geo_fail {u : Str} (hu : Bare u) (h : ∀ w ∈ [cs!"COORD1", cs!"COORD2"], Apart w u)
    (h2 : Apart cs!"DISTANCE" u) : parse cfg geoFunction true u = .fail := by
  apply alt_fail
  · exact map_fail (seq_fail (fnHead_fail hu h))
  · exact map_fail (seq_fail (fnHead_fail2 hu h2))

theorem now_fail {u : Str} (hu : Bare u) (h : matchLit true cs!"CURRENT_TIMESTAMP" u = none) :
    parse cfg (.map NumFn.str sqlNoArgFunction) sk u = .fail := by
  apply map_fail
  rw [sqlNoArgFunction, lexeme_bare hu]
  exact kw_none hu h

theorem nvf_fail {u : Str} (hu : Bare u) (h : ∀ w ∈ fnWords, Apart w u)
    (hudf : parse cfg (seqL udfName (sym cs!"(")) true u = .fail)
    (hts : matchLit true cs!"CURRENT_TIMESTAMP" u = none) :
    parse cfg numericValueFunction true u = .fail := by
  have sub : ∀ (ws : List Str), (ws.all fun w => fnWords.contains w) = true → ∀ w ∈ ws, Apart w u := by
    intro ws hws w hw
    exact h w (List.contains_iff_mem.1 (List.all_eq_true.1 hws w hw))
  refine alt_fail (trig_fail hu (sub _ (by decide +kernel))) (alt_fail (math_fail hu (sub _ (by decide +kernel))
    (sub _ (by decide +kernel)) (sub _ (by decide +kernel))) (alt_fail (cast_fail hu (sub [cs!"CAST"] (by decide +kernel) _ (by simp)))
    (alt_fail (geo_fail hu (sub _ (by decide +kernel)) (sub [cs!"DISTANCE"] (by decide +kernel) _ (by simp)))
    (alt_fail (map_fail (seq_fail hudf)) (now_fail hu hts)))))

theorem udf_fail_kw {w t y : Str} (h : KwStart w t y) (hr : Reserved w)
    (hm : offAll (cs!"END" :: missed) w = true)
    (ho : offAll [cs!"RIGHT", cs!"LEFT", cs!"UPPER", cs!"LOWER", cs!"DISTINCT", cs!"TRIM"] w = true) :
    parse cfg (seqL udfName (sym cs!"(")) true (t ++ y) = .fail := by
  refine stuck_seqL_fail ?_ fun _ _ hc => sym_idChar hc (by decide)
  refine stuck_lexeme h.bare ?_
  rw [alt_right (h.no_regular hr hm)]
  exact stuck_anyKw h.bare (h.apart ho)

/-- No function starts with the given keyword. -/
theorem nvf_fail_kw {w t y : Str} (h : KwStart w t y) (hr : Reserved w)
    (ho : offAll ((cs!"END" :: missed) ++
      [cs!"RIGHT", cs!"LEFT", cs!"UPPER", cs!"LOWER", cs!"DISTINCT", cs!"TRIM"] ++ fnWords) w = true)
    (hp : prefixCI cs!"CURRENT_TIMESTAMP" w = false) :
    parse cfg numericValueFunction true (t ++ y) = .fail := by
  simp only [offAll, List.all_append, Bool.and_eq_true] at ho
  apply nvf_fail h.bare (h.apart ho.2) (udf_fail_kw h hr ho.1.1 ho.1.2)
  exact h.none (by rw [hp]; decide)

/-- a decidable form of `Reserved` -/
def reservedB (w : Str) : Bool := Spec.words.any fun m => m.map lowerC == w.map lowerC

theorem reservedB_iff {w : Str} (h : reservedB w = true) : Reserved w := by
  obtain ⟨m, hm, h1⟩ := List.any_eq_true.1 h
  exact ⟨m, hm, (beq_iff_eq.1 h1).symm⟩

/-- the reserved words that are no names -/
def Taken (w : Str) : Prop := Reserved w ∧ ¬ ∃ m ∈ missed, SameCI w m

/-- a decidable form of `Taken` -/
def takenB (w : Str) : Bool := reservedB w && missed.all fun m => w.map lowerC != m.map lowerC

theorem takenB_iff {w : Str} (h : takenB w = true) : Taken w := by
  simp only [takenB, Bool.and_eq_true, List.all_eq_true, bne_iff_ne] at h
  refine ⟨reservedB_iff h.1, ?_⟩
  rintro ⟨m, hm, e⟩
  exact h.2 m hm e

theorem _root_.Adql.Spec.PlainName.fn {x : Str} (h : PlainName x) : FnName x := ⟨h.1, h.2.1, h.2.2.1.2, h.2.2.2⟩

/-- no name of a function is such a word -/
theorem plain_other {x w : Str} (hx : FnName x) (hw : Taken w ∨ w ∈ openWords) : ¬ SameCI x w := by
  intro h
  rcases hw with ⟨⟨m, hm1, h1⟩, h2⟩ | h1
  · obtain ⟨m', hm', h3⟩ := hx.2.1 ⟨m, hm1, h.trans h1⟩
    exact h2 ⟨m', hm', (sameCI_trans' h).1 h3⟩
  · exact hx.2.2.1 _ h1 h

/-- no part of a name is such a word -/
theorem free_other {x w : Str} (hx : Free x) (hw : Taken w) : ¬ SameCI x w := by
  intro h
  obtain ⟨⟨m, hm1, h1⟩, h2⟩ := hw
  obtain ⟨m', hm', h3⟩ := hx ⟨m, hm1, h.trans h1⟩
  exact h2 ⟨m', hm', (sameCI_trans' h).1 h3⟩

theorem plain_apart {x y : Str} (hx : FnName x) (hy : NotContinued y) {ws : List Str}
    (hw : (ws.all fun w => w.all isIdChar) = true)
    (hr : ∀ w ∈ ws, Taken w ∨ w ∈ openWords) : ∀ w ∈ ws, Apart w (x ++ y) := by
  intro w hm
  exact apart_word (List.all_eq_true.1 hw w hm) hx.1 hy (plain_other hx (hr w hm))

end Adql.Fwd
