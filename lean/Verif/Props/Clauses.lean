import Verif.Props.Geometry
import Verif.Props.Literals
import Verif.Props.Upload
import Verif.Spec.Text

/-!
# C19, C37 and C09: TOP, NOT and the words that are recognised as prefixes
-/

namespace Adql

open P Spec

section
variable {rec : (n : Rule) → Bool → Str → Res (Attr n)} {sk : Bool} {s : Str}

theorem run_andSpace : step rec andSpace false s = match s with
    | [] => .fail
    | c :: _ => if isSpace c then .ok () s else .fail := by
  cases s with
  | nil => rfl
  | cons c r => by_cases h : isSpace c = true <;> simp [andSpace, step, skip, h]

theorem run_word (w : Str) : step rec (word w) sk s = match matchLit true w (skip sk s) with
    | some (t, c :: r) => if isSpace c then .ok t (c :: r) else .fail
    | _ => .fail := by
  simp only [word, run_lexeme, run_seqL, run_kw, skip_skip]
  cases matchLit true w (skip sk s) with
  | none => rfl
  | some x =>
    obtain ⟨t, r⟩ := x
    simp only [Res.bind_ok, run_andSpace]
    cases r with
    | nil => rfl
    | cons c r => by_cases h : isSpace c = true <;> simp [h]

theorem run_top : step rec topClause true s = match matchLit true cs!"TOP" (skip true s) with
    | some (_, c :: r) =>
      if isSpace c then
        match digits1 (skip true (c :: r)) with
        | some (d, r') =>
          if digitsVal d ≤ topMax then
            match r' with
            | e :: _ => if isSpace e then .ok (digitsVal d) r' else .err (.expect "space" r')
            | [] => .err (.expect "space" [])
          else .err (.expect "unsigned integer" (c :: r))
        | none => .err (.expect "unsigned integer" (c :: r))
      else .ok topMax s
    | _ => .ok topMax s := by
  simp only [topClause, run_optD, run_seqR, run_word]
  cases matchLit true cs!"TOP" (skip true s) with
  | none => rfl
  | some x =>
    obtain ⟨t, r⟩ := x
    cases r with
    | nil => rfl
    | cons c r =>
      by_cases h : isSpace c = true
      · simp only [h, if_true, Res.bind_ok, run_expect, run_lexeme, run_seqL, ulongLong, run_act,
          run_plusS_chS, skip_skip]
        generalize skip true (c :: r) = u
        unfold digits1
        by_cases h0 : List.takeWhile isDigit u = []
        · simp [h0]
        · simp only [List.isEmpty_iff, h0, if_false]
          by_cases hv : digitsVal (List.takeWhile isDigit u) ≤ topMax
          · simp only [hv, if_true, Res.bind_ok, run_andSpace]
            cases List.dropWhile isDigit u with
            | nil => rfl
            | cons e v => by_cases he : isSpace e = true <;> simp [he]
          · simp [hv]
      · simp [h]

end

theorem foldl_value (t : Str) : ∀ n, t.foldl (fun n c => n * 10 + (c.toNat - 48)) n =
    n * 10 ^ t.length + value t := by
  induction t with
  | nil => simp [value]
  | cons c t ih =>
    intro n
    simp only [List.foldl_cons, ih, value, List.length_cons, Nat.pow_succ, Nat.add_mul,
      Nat.mul_assoc, Nat.mul_comm 10]
    omega

theorem digitsVal_value (t : Str) : digitsVal t = value t := by
  simp [digitsVal, foldl_value]

/-! ### C19 -/

/-- `s` begins, after blanks, with the word TOP (in any letter case) followed by a blank. -/
def Spec.TopAt (s : Str) : Prop :=
  ∃ b t c r, Blanks b ∧ SameCI t cs!"TOP" ∧ isSpace c = true ∧ s = b ++ (t ++ c :: r)

theorem top_match {b t r : Str} {c : Char} (hb : Blanks b) (ht : SameCI t cs!"TOP") :
    matchLit true cs!"TOP" (skip true (b ++ (t ++ c :: r))) = some (t, c :: r) := by
  obtain ⟨x, v, rfl, hx, -⟩ := sameCI_cons ht
  have hsp := lowerC_space hx (by decide)
  rw [skip_blanks hb, show skip true (x :: v ++ c :: r) = x :: v ++ c :: r by simp [skip, hsp]]
  exact matchLit_sameCI ht _

theorem skip_digits {b d u : Str} (hb : Blanks b) (hd : Digits d) :
    skip true (b ++ (d ++ u)) = d ++ u := by
  rw [skip_blanks hb]
  obtain ⟨hne, hd⟩ := hd
  cases d with
  | nil => exact absurd rfl hne
  | cons x v =>
    have : isSpace x = false := by
      have h1 := hd x (by simp)
      rw [← isDigit_iff] at h1
      cases h2 : isSpace x with
      | false => rfl
      | true =>
        rw [isSpace_iff] at h2
        simp only [isDigit, Bool.and_eq_true, decide_eq_true_eq] at h1
        omega
    simp [skip, this]

theorem digits_before_space {d u : Str} {e : Char} (hd : Digits d) (he : isDigit e = false) :
    digits1 (d ++ e :: u) = some (d, e :: u) := by
  rw [digits1_append hd]; simp [he]

theorem space_not_digit {c : Char} (h : isSpace c = true) : isDigit c = false := by
  rw [isSpace_iff] at h
  cases h2 : isDigit c with
  | false => rfl
  | true =>
    simp only [isDigit, Bool.and_eq_true, decide_eq_true_eq] at h2
    omega

/-- **C19.** TOP and a number that fits in 64 bits are kept as the number, whatever the number of
leading zeros. -/
theorem C19_value (cfg : Config) {b t b' d r : Str} {c e : Char} (hb : Blanks b)
    (ht : SameCI t cs!"TOP") (hc : isSpace c = true) (hb' : Blanks b') (hd : Digits d)
    (he : isSpace e = true) (hv : value d < 2 ^ 64) :
    parse cfg topClause true (b ++ (t ++ (c :: (b' ++ (d ++ e :: r))))) = .ok (value d) (e :: r) := by
  have hb2 : Blanks (c :: b') := by
    intro x hx; rcases List.mem_cons.1 hx with rfl | hx
    · exact hc
    · exact hb' x hx
  simp only [parse, run_top]
  rw [top_match hb ht]
  simp only [hc, if_true]
  rw [show c :: (b' ++ (d ++ e :: r)) = (c :: b') ++ (d ++ e :: r) from rfl, skip_digits hb2 hd,
    digits_before_space hd (space_not_digit he)]
  have : digitsVal d ≤ topMax := by rw [digitsVal_value]; simp only [topMax]; omega
  simp only [this, if_true, he]
  rw [digitsVal_value]

/-- **C19.** A number that does not fit in 64 bits is refused. -/
theorem C19_too_big (cfg : Config) {b t b' d r : Str} {c e : Char} (hb : Blanks b)
    (ht : SameCI t cs!"TOP") (hc : isSpace c = true) (hb' : Blanks b') (hd : Digits d)
    (he : isDigit e = false) (hv : 2 ^ 64 ≤ value d) :
    parse cfg topClause true (b ++ (t ++ (c :: (b' ++ (d ++ e :: r))))) =
      .err (.expect "unsigned integer" (c :: (b' ++ (d ++ e :: r)))) := by
  have hb2 : Blanks (c :: b') := by
    intro x hx; rcases List.mem_cons.1 hx with rfl | hx
    · exact hc
    · exact hb' x hx
  simp only [parse, run_top]
  rw [top_match hb ht]
  simp only [hc, if_true]
  rw [show skip true (c :: (b' ++ (d ++ e :: r))) = d ++ e :: r from skip_digits hb2 hd,
    digits_before_space hd he]
  have : ¬ digitsVal d ≤ topMax := by rw [digitsVal_value]; simp only [topMax]; omega
  simp only [this, if_false]

/-- **C19.** Without the word TOP nothing is consumed and no limit is reported. -/
theorem C19_none (cfg : Config) (s : Str) (hs : ¬ TopAt s) :
    parse cfg topClause true s = .ok topMax s := by
  simp only [parse, run_top]
  cases h : matchLit true cs!"TOP" (skip true s) with
  | none => rfl
  | some x =>
    obtain ⟨t, r⟩ := x
    cases r with
    | nil => rfl
    | cons c r =>
      by_cases hc : isSpace c = true
      · obtain ⟨b, hb, hB⟩ := skip_blank true s
        obtain ⟨h1, h2⟩ := matchLit_iff.1 h
        exact absurd ⟨b, t, c, r, hB.1, litOK_ci.1 h2, hc, by rw [← h1]; exact hb⟩ hs
      · simp [hc]

/-- **C19.** Conversely, a reported limit was written. -/
theorem C19_only (cfg : Config) (s r : Str) (n : Nat) (h : parse cfg topClause true s = .ok n r) :
    (n = 2 ^ 64 - 1 ∧ r = s ∧ ¬ TopAt s) ∨
    ∃ b t b' d, Blanks b ∧ SameCI t cs!"TOP" ∧ Blanks b' ∧ b' ≠ [] ∧ Digits d ∧ value d = n ∧
      n < 2 ^ 64 ∧ s = b ++ (t ++ (b' ++ (d ++ r))) ∧ ∃ e u, r = e :: u ∧ isSpace e = true := by
  simp only [parse, run_top] at h
  by_cases hT : TopAt s
  · obtain ⟨b, t, c, u, hb, ht, hc, rfl⟩ := hT
    rw [top_match hb ht] at h
    simp only [hc, if_true] at h
    obtain ⟨b', hb', hB'⟩ := skip_blank true (c :: u)
    cases hd : digits1 (skip true (c :: u)) with
    | none => rw [hd] at h; simp at h
    | some x =>
      obtain ⟨d, r'⟩ := x
      rw [hd] at h
      obtain ⟨h1, h2⟩ := digits1_some hd
      simp only at h
      split at h
      · rename_i hv
        cases r' with
        | nil => simp at h
        | cons e v =>
          by_cases he : isSpace e = true
          · simp only [he, if_true, Res.ok.injEq] at h
            obtain ⟨rfl, rfl⟩ := h
            refine .inr ⟨b, t, b', d, hb, ht, hB'.1, ?_, h2, (digitsVal_value d).symm, ?_, ?_,
              e, v, rfl, he⟩
            · rintro rfl
              rw [List.nil_append] at hb'
              rw [← hb'] at h1
              obtain ⟨hne, hd2⟩ := h2
              cases d with
              | nil => exact hne rfl
              | cons y d =>
                simp only [List.cons_append, List.cons.injEq] at h1
                have h3 := isDigit_iff.2 (hd2 y (by simp))
                rw [← h1.1, space_not_digit hc] at h3
                simp at h3
            · simp only [topMax] at hv; omega
            · rw [← h1, ← hb']
          · simp [he] at h
      · simp at h
  · have := C19_none cfg s hT
    simp only [parse, run_top] at this
    rw [this] at h
    simp only [Res.ok.injEq] at h
    exact .inl ⟨h.1.symm, h.2.symm, hT⟩

theorem digitChar_value {d : Nat} (h : d < 10) : (Nat.digitChar d).toNat - 48 = d ∧
    isDigit (Nat.digitChar d) = true := by
  rcases d with _ | _ | _ | _ | _ | _ | _ | _ | _ | _ | d <;> first | decide | omega

theorem value_append (a b : Str) : value (a ++ b) = value a * 10 ^ b.length + value b := by
  induction a with
  | nil => simp [value]
  | cons c a ih =>
    simp only [List.cons_append, value, ih, List.length_append, Nat.pow_add, Nat.add_mul,
      Nat.mul_assoc]
    omega

/-- **C19.** The decimal text of a number: digits only, of that value, without a leading zero
unless it is the single digit zero. -/
theorem C19_decimal (n : Nat) : Digits (decDigits n) ∧ value (decDigits n) = n ∧
    (∀ t, decDigits n = '0' :: t → t = [] ∧ n = 0) := by
  induction n using Nat.strongRecOn with
  | _ n ih =>
    by_cases hn : n < 10
    · have e : decDigits n = [Nat.digitChar n] := Nat.toDigits_of_lt_base hn
      obtain ⟨h1, h2⟩ := digitChar_value hn
      rw [e]
      refine ⟨⟨by simp, by simp; exact isDigit_iff.1 h2⟩, by simp [value, h1], ?_⟩
      intro t ht
      simp only [List.cons.injEq] at ht
      refine ⟨ht.2.symm, ?_⟩
      rw [ht.1] at h1
      rw [← h1]; decide
    · have e : decDigits n = decDigits (n / 10) ++ decDigits (n % 10) := by
        have := Nat.toDigits_append_toDigits (b := 10) (n := n / 10) (d := n % 10) (by omega)
          (by omega) (by omega)
        simp only [decDigits]
        rw [this]; congr 1; omega
      have e2 : decDigits (n % 10) = [Nat.digitChar (n % 10)] := Nat.toDigits_of_lt_base (by omega)
      obtain ⟨h1, h2⟩ := digitChar_value (d := n % 10) (by omega)
      obtain ⟨⟨i1, i2⟩, i3, i4⟩ := ih (n / 10) (by omega)
      rw [e, e2]
      refine ⟨⟨by simp, ?_⟩, ?_, ?_⟩
      · intro c hc
        rcases List.mem_append.1 hc with hc | hc
        · exact i2 c hc
        · simp at hc; rw [hc]; exact isDigit_iff.1 h2
      · rw [value_append, i3]; simp [value, h1]; omega
      · intro t ht
        cases h3 : decDigits (n / 10) with
        | nil => exact absurd h3 i1
        | cons c u =>
          rw [h3] at ht
          simp only [List.cons_append, List.cons.injEq] at ht
          have := (i4 u (by rw [h3, ht.1])).2
          omega

/-- **C19.** How the limit is formatted: in decimal, and not at all if it is `2^64 - 1`. -/
theorem C19_print (fmt : Str → Str) (q : Str) (n : Nat) (c : Columns) :
    (Select.mk q n c).print fmt = cs!"SELECT " ++ q ++ (if q = [] then [] else cs!" ") ++
      (if n = 2 ^ 64 - 1 then [] else cs!"TOP " ++ decDigits n ++ cs!" ") ++ c.print fmt := by
  by_cases hn : n = 2 ^ 64 - 1
  · rw [hn]
    cases q <;> simp [Select.print, printSelect, topMax]
  · have hn : ¬ n = 18446744073709551615 := hn
    cases q <;> simp [Select.print, printSelect, topMax, hn]

/-- A limit with leading zeros; the largest limit is dropped; one more is refused. -/
example : constructPrint ⟨fun _ => none, false⟩ id cs!"SELECT top 00012 a FROM t" =
      .ok cs!"SELECT TOP 12 a FROM t" ∧
    constructPrint ⟨fun _ => none, false⟩ id cs!"SELECT TOP 18446744073709551615 a FROM t" =
      .ok cs!"SELECT a FROM t" ∧
    constructPrint ⟨fun _ => none, false⟩ id cs!"SELECT top a FROM t" =
      .error (.expecting "unsigned integer" cs!" a FROM t") := by
  refine ⟨?_, ?_, ?_⟩ <;> kernel_rfl

/-! ### C37 -/

/-- `s` begins, after blanks, with the word NOT (in any letter case) followed by a blank. -/
def Spec.NotAt (s : Str) : Prop :=
  ∃ b t c r, Blanks b ∧ SameCI t cs!"NOT" ∧ isSpace c = true ∧ s = b ++ (t ++ c :: r)

theorem notAt_iff {s : Str} : NotAt s ↔
    ∃ t c r, matchLit true cs!"NOT" (skip true s) = some (t, c :: r) ∧ isSpace c = true := by
  constructor
  · rintro ⟨b, t, c, r, hb, ht, hc, rfl⟩
    refine ⟨t, c, r, ?_, hc⟩
    obtain ⟨x, v, rfl, hx, -⟩ := sameCI_cons ht
    have hsp := lowerC_space hx (by decide)
    rw [skip_blanks hb, show skip true (x :: v ++ c :: r) = x :: v ++ c :: r by simp [skip, hsp]]
    exact matchLit_sameCI ht _
  · rintro ⟨t, c, r, h, hc⟩
    obtain ⟨b, hb, hB⟩ := skip_blank true s
    obtain ⟨h1, h2⟩ := matchLit_iff.1 h
    exact ⟨b, t, c, r, hB.1, litOK_ci.1 h2, hc, by rw [← h1]; exact hb⟩

/-- What the optional NOT yields. -/
theorem factorNot_ok {cfg : Config} {res : Bool} {s n r : Str}
    (h : parse cfg (factorNot res) true s = .ok n r) :
    (NotAt s ∧ SameCI n cs!"NOT" ∧ r ≠ s) ∨
    (¬ NotAt s ∧ r = s ∧ ((res = true ∧ StartsWith cs!"NOT" s ∧ SameCI n cs!"NOT") ∨
      (n = [] ∧ (res = false ∨ ¬ StartsWith cs!"NOT" s)))) := by
  have hst := startsWith_iff (w := cs!"NOT") (s := s) ⟨'N', _, rfl, by decide⟩
  simp only [parse, factorNot, run_alt, run_word] at h
  cases hm : matchLit true cs!"NOT" (skip true s) with
  | none =>
    have hn : ¬ NotAt s := by rw [notAt_iff, hm]; simp
    have hs : ¬ StartsWith cs!"NOT" s := by rw [hst, hm]; simp
    rw [hm] at h
    refine .inr ⟨hn, ?_⟩
    cases res with
    | false => simp [run_pure] at h; exact ⟨h.2.symm, .inr ⟨h.1, .inl rfl⟩⟩
    | true =>
      have e : step (D cfg) (.andP (.lexeme (kw cs!"NOT"))) true s = .fail := by
        simp only [step, kw, skip_skip]; rw [hm]
      simp only [if_true, run_alt, e, Res.orElse_fail, run_pure, Res.ok.injEq] at h
      exact ⟨h.2.symm, .inr ⟨h.1.symm, .inr hs⟩⟩
  | some x =>
    obtain ⟨t, u⟩ := x
    have hci : SameCI t cs!"NOT" := litOK_ci.1 (matchLit_iff.1 hm).2
    have hs : StartsWith cs!"NOT" s := by rw [hst, hm]; simp
    rw [hm] at h
    have hno : ∀ {n r : Str}, (NotAt s → False) →
        (if res then .alt (.andP (.lexeme (kw cs!"NOT"))) (.pure []) else .pure [] : G Str) =
          (if res then .alt (.andP (.lexeme (kw cs!"NOT"))) (.pure []) else .pure []) →
        step (D cfg) (if res then .alt (.andP (.lexeme (kw cs!"NOT"))) (.pure []) else .pure [])
          true s = .ok n r → r = s ∧ ((res = true ∧ StartsWith cs!"NOT" s ∧ SameCI n cs!"NOT") ∨
      (n = [] ∧ (res = false ∨ ¬ StartsWith cs!"NOT" s))) := by
      intro n r _ _ h
      cases res with
      | false => simp [run_pure] at h; exact ⟨h.2.symm, .inr ⟨h.1, .inl rfl⟩⟩
      | true =>
        have e : step (D cfg) (.andP (.lexeme (kw cs!"NOT"))) true s = .ok t s := by
          simp only [step, kw, skip_skip]; rw [hm]
        simp only [if_true, run_alt, e, Res.orElse_ok, Res.ok.injEq] at h
        exact ⟨h.2.symm, .inl ⟨rfl, hs, h.1 ▸ hci⟩⟩
    cases u with
    | nil =>
      have hn : ¬ NotAt s := by rw [notAt_iff, hm]; simp
      exact .inr ⟨hn, hno hn rfl h⟩
    | cons c u =>
      by_cases hc : isSpace c = true
      · simp only [hc, if_true, Res.orElse_ok, Res.ok.injEq] at h
        refine .inl ⟨notAt_iff.2 ⟨t, c, u, hm, hc⟩, h.1 ▸ hci, ?_⟩
        intro e
        obtain ⟨b, hb, -⟩ := skip_blank true s
        obtain ⟨h1, -⟩ := matchLit_iff.1 hm
        have hl : s.length = b.length + (t.length + (c :: u).length) := by
          conv => lhs; rw [hb, h1]
          simp
        have ht : t.length = 3 := by have := congrArg List.length hci; simpa using this
        have := congrArg List.length (h.2.trans e)
        omega
      · have hn : ¬ NotAt s := by
          rw [notAt_iff, hm]; rintro ⟨t', c', r', e, hc'⟩; simp at e; exact hc (e.2.1 ▸ hc')
        simp only [hc, Bool.false_eq_true, if_false, Res.orElse_fail] at h
        exact .inr ⟨hn, hno hn rfl h⟩

/-- **C37**, exactly: with and without Qi's missing rollback. -/
theorem C37_exact (cfg : Config) (res : Bool) (s r n : Str) (p : BP)
    (h : parse cfg (booleanFactor res) true s = .ok (.mk n p) r) :
    n ≠ [] ↔ NotAt s ∨ (res = true ∧ StartsWith cs!"NOT" s) := by
  simp only [parse, booleanFactor] at h
  rw [step_map_ok] at h
  obtain ⟨⟨n', p'⟩, h, e⟩ := h
  simp only [BF.mk.injEq] at e
  obtain ⟨rfl, rfl⟩ := e
  rw [step_seq_ok] at h
  obtain ⟨u, h, -⟩ := h
  have hne : ∀ {x : Str}, SameCI x cs!"NOT" → x ≠ [] := by
    rintro x hx rfl; simp [SameCI] at hx
  rcases factorNot_ok h with ⟨h1, h2, -⟩ | ⟨h1, -, ⟨h2, h3, h4⟩ | ⟨h2, h3⟩⟩
  · exact ⟨fun _ => .inl h1, fun _ => hne h2⟩
  · exact ⟨fun _ => .inr ⟨h2, h3⟩, fun _ => hne h4⟩
  · simp only at h2
    subst h2
    simp only [ne_eq, not_true_eq_false, false_iff]
    rintro (h4 | ⟨h4, h5⟩)
    · exact h1 h4
    · rcases h3 with h3 | h3
      · rw [h3] at h4; cases h4
      · exact h3 h5

/-- **C37**, for an implementation that rolls the attribute back. -/
theorem C37_negated_partial (cfg : Config) (s r n : Str) (p : BP)
    (h : parse cfg (booleanFactor false) true s = .ok (.mk n p) r) : n ≠ [] ↔ NotAt s := by
  rw [C37_exact cfg false s r n p h]; simp

/-- A negated condition, and one whose column only starts like NOT. -/
example :
    let f := fun x : Res BF => match x with
      | .ok (.mk n _) r => some (n, r)
      | _ => none
    f (parse ⟨fun _ => none, false⟩ (booleanFactor false) true cs!" Not a = 1") =
      some (cs!"Not", []) ∧
    f (parse ⟨fun _ => none, false⟩ (booleanFactor false) true cs!" notes = 1") = some ([], []) ∧
    f (parse ⟨fun _ => none, true⟩ (booleanFactor true) true cs!" notes = 1") =
      some (cs!"not", []) := by
  refine ⟨?_, ?_, ?_⟩ <;> kernel_rfl

/-! ### C09 -/

theorem unsignedNumeric_letter {cfg : Config} {sk : Bool} {s : Str} {c : Char} {u : Str}
    (hs : skip sk s = c :: u) (hc : isDigit c = false) (hd : c ≠ '.') :
    parse cfg unsignedNumeric sk s = .fail := by
  simp only [parse, run_unsignedNumeric, hs]
  simp [numN, exactN, digits1, hc, hd, ofOpt]

theorem charString_letter {cfg : Config} {sk : Bool} {s : Str} {c : Char} {u : Str}
    (hs : skip sk s = c :: u) (hc : c ≠ '\'') : parse cfg charString sk s = .fail := by
  apply C07_otherwise_fails
  intro a r h
  obtain ⟨b, h1, h2, ⟨p, v, rfl, ⟨w, rfl, -⟩, -⟩, -⟩ := (C07_string_literal cfg sk s a r).1 h
  have : skip sk s = '\'' :: w ++ ['\''] ++ v ++ r := by
    rw [h1]
    apply skip_eq h2
    intro d t e; simp at e; rw [← e.1]; decide
  rw [this] at hs
  simp at hs
  exact hc hs.1.symm

theorem startsWith_head {w s : Str} {c : Char} {v : Str} (hw : w = c :: v) (hc : isLetter c = true)
    (h : StartsWith w s) : ∃ d u t r, skip true s = d :: u ∧ lowerC d = lowerC c ∧
      matchLit true w (skip true s) = some (t, r) ∧ SameCI t w ∧ isLetter d = true := by
  subst hw
  obtain ⟨b, t, r, rfl, hb, ht⟩ := h
  obtain ⟨d, x, rfl, hd, hx⟩ := sameCI_cons ht
  have hsp := lowerC_space hd hc
  have hsk : skip true (b ++ (d :: x ++ r)) = d :: x ++ r := by
    rw [skip_blanks hb]; simp [skip, hsp]
  refine ⟨d, x ++ r, d :: x, r, by rw [hsk]; rfl, hd, by rw [hsk]; exact matchLit_sameCI ht r, ht, ?_⟩
  rw [isLetter_toNat] at hc ⊢
  have h2 := congrArg Char.toNat hd
  rw [lowerC_toNat, lowerC_toNat] at h2
  split at h2 <;> split at h2 <;> omega

/-- **C09 is violated.** Every text that starts with TRUE or FALSE, in any letter case and however
the word goes on, is read as the literal, never as a column. -/
theorem C09_boolean (cfg : Config) (s : Str)
    (h : StartsWith cs!"TRUE" s ∨ StartsWith cs!"FALSE" s) :
    ∃ t r, parse cfg primary true s = .ok (.str t) r ∧ (SameCI t cs!"TRUE" ∨ SameCI t cs!"FALSE") := by
  obtain ⟨w, hw, v, hv⟩ : ∃ w : Str, (w = cs!"TRUE" ∨ w = cs!"FALSE") ∧ ∃ v, StartsWith w s ∧
      w.head? = some v := by
    rcases h with h | h
    · exact ⟨_, .inl rfl, _, h, rfl⟩
    · exact ⟨_, .inr rfl, _, h, rfl⟩
  obtain ⟨d, u, t, r, hs, hd, hm, ht, hl⟩ : ∃ d u t r, skip true s = d :: u ∧
      (lowerC d = 't' ∨ lowerC d = 'f') ∧ matchLit true w (skip true s) = some (t, r) ∧
      SameCI t w ∧ isLetter d = true := by
    rcases hw with rfl | rfl
    · obtain ⟨d, u, t, r, h1, h2, h3, h4, h5⟩ := startsWith_head rfl (by decide) hv.1
      exact ⟨d, u, t, r, h1, .inl h2, h3, h4, h5⟩
    · obtain ⟨d, u, t, r, h1, h2, h3, h4, h5⟩ := startsWith_head rfl (by decide) hv.1
      exact ⟨d, u, t, r, h1, .inr h2, h3, h4, h5⟩
  have hdig : isDigit d = false := by
    rw [isLetter_toNat] at hl
    cases h2 : isDigit d with
    | false => rfl
    | true => simp only [isDigit, Bool.and_eq_true, decide_eq_true_eq] at h2; omega
  have hdot : d ≠ '.' := by rintro rfl; simp [isLetter] at hl
  have hq : d ≠ '\'' := by rintro rfl; simp [isLetter] at hl
  have e1 : step (D cfg) arrayConstructor true s = .fail := by
    have : step (D cfg) (kw cs!"ARRAY") true s = .fail := run_kw_head hs (by
      intro x y e
      simp only [List.cons.injEq] at e
      rw [← e.1]
      rcases hd with hd | hd <;> rw [hd] <;> decide) (by simp)
    simp only [arrayConstructor, run_map, run_seqL, run_seqR, run_seq, this, Res.bind_fail]
  have hsf : skip false (skip true s) = d :: u := hs
  have e2 : step (D cfg) unsignedNumeric false (skip true s) = .fail :=
    unsignedNumeric_letter hsf hdig hdot
  have e3 : step (D cfg) charString false (skip true s) = .fail := charString_letter hsf hq
  have e4 : ∃ t r, step (D cfg) booleanLiteral false (skip true s) = .ok t r ∧
      (SameCI t cs!"TRUE" ∨ SameCI t cs!"FALSE") := by
    have hbl : step (D cfg) booleanLiteral false (skip true s) =
        (match matchLit true cs!"True" (skip true s) with
          | some (t, r) => .ok t r
          | none => .fail : Res Str).orElse
        (match matchLit true cs!"False" (skip true s) with
          | some (t, r) => .ok t r
          | none => .fail) := by
      simp only [booleanLiteral, run_lexeme, run_alt, run_kw]; rfl
    rw [hbl]
    have c1 : ∀ x, matchLit true cs!"True" x = matchLit true cs!"TRUE" x := by
      intro x
      cases h1 : matchLit true cs!"TRUE" x with
      | none =>
        rw [matchLit_none] at h1 ⊢
        intro t r h2 h3; exact h1 t r h2 (litOK_ci.2 ((litOK_ci.1 h3).trans (by decide)))
      | some y =>
        obtain ⟨t, r⟩ := y
        rw [matchLit_iff] at h1 ⊢
        exact ⟨h1.1, litOK_ci.2 ((litOK_ci.1 h1.2).trans (by decide))⟩
    have c2 : ∀ x, matchLit true cs!"False" x = matchLit true cs!"FALSE" x := by
      intro x
      cases h1 : matchLit true cs!"FALSE" x with
      | none =>
        rw [matchLit_none] at h1 ⊢
        intro t r h2 h3; exact h1 t r h2 (litOK_ci.2 ((litOK_ci.1 h3).trans (by decide)))
      | some y =>
        obtain ⟨t, r⟩ := y
        rw [matchLit_iff] at h1 ⊢
        exact ⟨h1.1, litOK_ci.2 ((litOK_ci.1 h1.2).trans (by decide))⟩
    rw [c1, c2]
    cases h1 : matchLit true cs!"TRUE" (skip true s) with
    | some y => exact ⟨y.1, y.2, rfl, .inl (litOK_ci.1 (matchLit_iff.1 h1).2)⟩
    | none =>
      rcases hw with rfl | rfl
      · rw [h1] at hm; cases hm
      · rw [hm]; exact ⟨t, r, rfl, .inr ht⟩
  obtain ⟨t', r', e4, ht'⟩ := e4
  refine ⟨t', r', ?_, ht'⟩
  have e5 : step (D cfg) unsignedLiteral true s = .ok t' r' := by
    simp only [unsignedLiteral, run_lexeme, run_alt, generalLiteral, e2, Res.orElse_fail, skip_skip]
    rw [e3, e4]; rfl
  simp only [parse, primary, run_alt, e1, Res.orElse_fail, run_map, e5, Res.bind_ok, Res.orElse_ok]

theorem Res.orElse_ne_fail {α : Type} {x y : Res α} (h : y ≠ .fail) : x.orElse y ≠ .fail := by
  cases x <;> simp [h]

/-- **C09 is violated.** On every text that starts with CURRENT_TIMESTAMP, however the word goes on,
a primary is the function or a call of a user function, never a column. -/
theorem C09_timestamp (cfg : Config) (s r : Str) (x : NumPrim)
    (h : StartsWith cs!"CURRENT_TIMESTAMP" s) (hx : parse cfg numericPrimary true s = .ok x r) :
    ∃ f, x = .nvf f := by
  obtain ⟨d, u, t, r', hs, hd, hm, ht, hl⟩ := startsWith_head rfl (by decide) h
  have e1 : step (D cfg) sqlNoArgFunction true s = .ok t r' := by
    simp only [sqlNoArgFunction, run_lexeme, run_kw, skip_skip, hm]
  have e2 : step (D cfg) numericValueFunction true s ≠ .fail := by
    simp only [numericValueFunction, run_alt]
    refine Res.orElse_ne_fail (Res.orElse_ne_fail (Res.orElse_ne_fail (Res.orElse_ne_fail
      (Res.orElse_ne_fail ?_))))
    simp only [run_map, e1, Res.bind_ok]
    simp
  simp only [parse, numericPrimary, run_alt, run_map] at hx
  cases h1 : step (D cfg) numericValueFunction true s with
  | ok f v =>
    rw [h1] at hx
    simp only [Res.bind_ok, Res.orElse_ok, Res.ok.injEq] at hx
    exact ⟨f, hx.1.symm⟩
  | fail => exact absurd h1 e2
  | err e => rw [h1] at hx; simp at hx
  | oof => rw [h1] at hx; simp at hx

/-- **C09**, what does hold: any other identifier, in front of anything but `.` and `[`, is read as
the column of that name. -/
theorem C09_column_partial (cfg : Config) (s w r : Str)
    (hid : parse cfg identifier true s = .ok w r)
    (hT : ¬ StartsWith cs!"TRUE" s) (hF : ¬ StartsWith cs!"FALSE" s)
    (hr : ∀ c t, r.dropWhile isSpace = c :: t → c ≠ '.' ∧ c ≠ '[') :
    parse cfg primary true s = .ok (.col (.col w)) r := by
  obtain ⟨b, rfl, hb, hw⟩ := identifier_iff.1 hid
  -- the first character
  obtain ⟨d, v, rfl, hd, hsp⟩ : ∃ d v, w = d :: v ∧ (isLetter d = true ∨ d = '"') ∧
      isSpace d = false := by
    rcases hw with ⟨⟨d, v, rfl, h1, -⟩, -⟩ | ⟨⟨x, rfl, -⟩, -⟩
    · have := isLetter_iff.2 h1
      exact ⟨d, v, rfl, .inl this, isLetter_not_space this⟩
    · exact ⟨'"', _, rfl, .inr rfl, by decide⟩
  have hs : skip true (b ++ (d :: v ++ r)) = d :: (v ++ r) := by
    rw [skip_blanks hb.1]; simp [skip, hsp]
  have hdig : isDigit d = false := by
    rcases hd with hl | rfl
    · rw [isLetter_toNat] at hl
      cases h2 : isDigit d with
      | false => rfl
      | true => simp only [isDigit, Bool.and_eq_true, decide_eq_true_eq] at h2; omega
    · decide
  have hdot : d ≠ '.' := by rintro rfl; simp [isLetter] at hd
  have hq : d ≠ '\'' := by rintro rfl; simp [isLetter] at hd
  have hsym : ∀ c, (c = '.' ∨ c = '[') → step (D cfg) (sym [c]) true r = .fail := by
    intro c hc
    rw [run_sym1]
    cases h : skip true r with
    | nil => rfl
    | cons x y =>
      have := hr x y h
      have hx : ¬ x = c := by rintro rfl; rcases hc with rfl | rfl <;> simp at this
      simp [hx]
  have e0 : step (D cfg) arrayConstructor true (b ++ (d :: v ++ r)) = .fail := by
    simp only [arrayConstructor, run_map, run_seqL, run_seqR, run_seq, run_kw, hs]
    cases hm : matchLit true cs!"ARRAY" (d :: (v ++ r)) with
    | none => rfl
    | some y =>
      obtain ⟨t, r'⟩ := y
      simp only [Res.bind_ok]
      obtain ⟨h1, h2⟩ := matchLit_iff.1 hm
      have h2 := litOK_ci.1 h2
      have h3 : step (D cfg) (sym cs!"[") true r' = .fail := by
        rcases hw with ⟨⟨d', v', e, h4, h5⟩, h6, -⟩ | ⟨⟨x, e, -⟩, -⟩
        · -- `t` is a prefix of the identifier
          have hpre : ∃ w', d :: v = t ++ w' ∧ r' = w' ++ r := by
            have htid : ∀ c ∈ t, isIdChar c = true := by
              intro c hc
              have h7 : lowerC c ∈ cs!"ARRAY".map lowerC := by
                rw [← h2]; exact List.mem_map_of_mem hc
              rw [← isIdChar_lowerC]
              have : (cs!"ARRAY".map lowerC).all isIdChar = true := by decide
              exact List.all_eq_true.1 this _ h7
            have hlen : t.length ≤ (d :: v).length := by
              refine Nat.le_of_not_lt fun hlt => ?_
              have hr0 : r ≠ [] := by
                rintro rfl
                have := congrArg List.length h1
                simp at this hlt; omega
              obtain ⟨c, r0, rfl⟩ := List.exists_cons_of_ne_nil hr0
              have hc : c ∈ t := by
                have h8 : (d :: v ++ c :: r0) = t ++ r' := h1
                have h9 : t = (d :: v ++ c :: r0).take t.length := by rw [h8]; simp
                rw [h9, List.take_append]
                apply List.mem_append_right
                have : ∃ k, t.length - (d :: v).length = k + 1 :=
                  ⟨t.length - (d :: v).length - 1, by omega⟩
                obtain ⟨k, hk⟩ := this
                rw [hk]; simp
              have := htid c hc
              rw [notContinued_iff] at h6
              rw [h6 c r0 rfl] at this; cases this
            have h8 : d :: v ++ r = t ++ r' := h1
            rw [List.append_eq_append_iff] at h8
            rcases h8 with ⟨a, ha, hb⟩ | ⟨a, ha, hb⟩
            · have : a = [] := by
                have := congrArg List.length ha
                simp at this hlen
                exact List.eq_nil_of_length_eq_zero (by omega)
              subst this
              exact ⟨[], by simpa using ha.symm, by simpa using hb.symm⟩
            · exact ⟨a, ha, hb⟩
          obtain ⟨w', hw', rfl⟩ := hpre
          cases w' with
          | nil => exact hsym '[' (.inr rfl)
          | cons c w' =>
            have hc : isIdChar c = true := by
              have hmem : c ∈ d :: v := by rw [hw']; simp
              rw [e] at hmem
              rcases List.mem_cons.1 hmem with rfl | hmem
              · exact isLetter_isIdChar (isLetter_iff.2 h4)
              · exact isIdChar_iff.2 (h5 c hmem)
            have hcs : isSpace c = false := by
              cases h7 : isSpace c with
              | false => rfl
              | true => rw [isSpace_iff] at h7; rw [isIdChar_toNat] at hc; omega
            rw [run_sym1]
            have hcb : ¬ c = '[' := by rintro rfl; simp [isIdChar, isDigit, isLetter] at hc
            simp [skip, hcs, hcb]
        · exfalso
          rw [List.cons_append, List.cons.injEq] at e
          obtain ⟨rfl, -⟩ := e
          cases t with
          | nil => simp at h2
          | cons x t =>
            simp only [List.cons_append, List.cons.injEq] at h1
            rw [← h1.1] at h2
            simp only [List.map_cons, List.cons.injEq] at h2
            exact absurd h2.1 (by decide)
      rw [h3]
      rfl
  have e1 : step (D cfg) unsignedLiteral true (b ++ (d :: v ++ r)) = .fail := by
    have hsf : skip false (d :: (v ++ r)) = d :: (v ++ r) := rfl
    have f2 : step (D cfg) unsignedNumeric false (d :: (v ++ r)) = .fail :=
      unsignedNumeric_letter hsf hdig hdot
    have f3 : step (D cfg) charString false (d :: (v ++ r)) = .fail := charString_letter hsf hq
    have g1 : matchLit true cs!"True" (d :: (v ++ r)) = none := by
      rw [matchLit_none]
      intro t r' h1 h2
      exact hT ⟨b, t, r', by rw [← h1]; rfl, hb.1, (litOK_ci.1 h2).trans (by decide)⟩
    have g2 : matchLit true cs!"False" (d :: (v ++ r)) = none := by
      rw [matchLit_none]
      intro t r' h1 h2
      exact hF ⟨b, t, r', by rw [← h1]; rfl, hb.1, (litOK_ci.1 h2).trans (by decide)⟩
    simp only [unsignedLiteral, run_lexeme, run_alt, generalLiteral, booleanLiteral, run_kw, hs,
      hsf, f2, f3, g1, g2, Res.orElse_fail]
  have hid' : step (D cfg) identifier true (b ++ (d :: v ++ r)) = .ok (d :: v) r := hid
  have e2 : step (D cfg) tap true (b ++ (d :: v ++ r)) = .fail := by
    have e : step (D cfg) tap true (b ++ (d :: v ++ r)) =
        step (D cfg) (tapUpload cfg) true (b ++ (d :: v ++ r)) := parse_nt cfg .tap _ _
    rw [e, run_tapUpload]
    split
    · rfl
    · rename_i t u hm
      exfalso
      have h1 := matchLit_cs_append hm
      rw [hs] at h1
      have h2 := identifier_tap (cfg := cfg) (sk := true) (b := b) (r := u) hb
      rw [← h1] at h2
      have h3 : parse cfg identifier true (b ++ (d :: v ++ r)) = .fail := h2
      rw [hid] at h3; cases h3
  have e3 : step (D cfg) columnReference true (b ++ (d :: v ++ r)) = .ok (.col (d :: v)) r := by
    have f := hsym '.' (.inl rfl)
    simp only [columnReference, run_alt, run_map, run_seq, hid', Res.bind_ok, run_seqR, f,
      Res.bind_fail, Res.orElse_fail, e2]
  simp only [parse, primary, run_alt, e0, e1, e3, Res.orElse_fail, run_map, Res.bind_ok,
    Res.bind_fail, Res.orElse_ok]

/-- A column that starts like FALSE cannot be selected; the literal can eat the start of FROM. -/
theorem C09_violated :
    constructPrint ⟨fun _ => none, false⟩ id cs!"SELECT false_alarm FROM t" =
      .error (.expecting "from" cs!"_alarm FROM t") ∧
    constructPrint ⟨fun _ => none, false⟩ id cs!"SELECT falsefrom t" =
      .ok cs!"SELECT false FROM t" ∧
    accepted (construct ⟨fun _ => none, false⟩ cs!"SELECT current_timestamp_utc FROM t") = false ∧
    accepted (construct ⟨fun _ => none, false⟩ cs!"SELECT afalse_alarm FROM t") = true := by
  refine ⟨?_, ?_, ?_, ?_⟩ <;> kernel_rfl

end Adql
