import Verif.Model.Upload
import Verif.Model.NoThrow
import Verif.Model.HeadOK
import Verif.Peg.NoFail

/-!
# C01, C02, C03, C11, C12: the outcome of constructing a query
-/

namespace Adql

open P Spec

/-- whether a query was built -/
def accepted {α : Type} : QRes α → Bool
  | .ok _ => true
  | .error _ => false

theorem accepted_iff {α : Type} {x : QRes α} : accepted x = true ↔ ∃ q, x = .ok q := by
  cases x <;> simp [accepted]

/-! ### C01 -/

/-- **C01.** The constructor always ends. -/
theorem C01_construct_ends (cfg : Config) (input : Str) :
    construct cfg input ≠ .error .diverges := by
  unfold construct
  have hp : ∀ e, preprocess input = .error e → e ≠ .diverges := by
    intro e h
    unfold preprocess at h
    split at h
    · rename_i m hm
      unfold tweakInputString at h
      split at h
      · rename_i e' he
        cases h
        unfold checkAndAdjustParens at he
        split at he
        · rename_i e'' he''
          cases he
          have : ∀ s d w, scanLeft s d w = .error e → e ≠ .diverges := by
            intro s
            induction s with
            | nil => intro d w h; cases h
            | cons c s ih =>
              intro d w h
              unfold scanLeft at h
              repeat' split at h
              all_goals first | exact ih _ _ h | (cases h; simp)
          exact this _ _ _ he''
        · split at he
          · cases he; simp
          · split at he
            · rename_i e'' he''
              cases he
              have : ∀ w s d b, scanGeom w s d b = .error e → e ≠ .diverges := by
                intro w s
                induction s with
                | nil => intro d b h; cases h
                | cons c s ih =>
                  intro d b h
                  unfold scanGeom at h
                  repeat' split at h
                  all_goals first | exact ih _ _ h | (cases h; simp)
              exact this _ _ _ _ he''
            · split at he <;> cases he
      · cases h
    · cases h
  cases h : preprocess input with
  | error e => simp only; intro h'; cases h'; exact hp _ h rfl
  | ok s =>
    simp only [parseIt]
    rw [parseQuery_eq]
    split
    · split <;> simp
    · simp
    · simp
    · simp
    · rename_i h'; exact absurd h' (parse_not_oof query_wf)

/-- a construction that ends with an error, one that ends with a query -/
example : construct ⟨fun _ => none, false⟩ cs!"SELECT ((((a" =
    .error (.expecting "columns" cs!" ((((a") := by kernel_rfl

/-- **C01, fuel.** The bound on the depth of rule calls used by the model is irrelevant: every larger
bound gives the same result, so the model is the unbounded recursion of the C++ code. -/
theorem C01_fuel_irrelevant (cfg : Config) (s : Str) (n : Nat) (hn : fuelFor s ≤ n) :
    step (run (grammar cfg) n) query true s = parseQuery cfg s := by
  rw [parseQuery_eq]
  apply step_run_eq_den (grammar_wf cfg)
  refine step_not_oof (run_suffix _ _) (run_consumes (grammar_wf cfg).consumes _) query 4
    query_wf true s (fun n sk' t ht => run_not_oof (grammar_wf cfg) _ n sk' t ?_)
  have := (grammar_wf cfg).rank_lt n
  unfold fuelFor at hn
  omega

/-! ### C02 -/

theorem parseIt_ok {cfg : Config} {s : Str} {q : QuerySpec} : parseIt cfg s = .ok q ↔
    ∃ b, parse cfg query true s = .ok q b ∧ ∀ c ∈ b, isSpace c = true := by
  unfold parseIt
  rw [parseQuery_eq]
  cases h : parse cfg query true s with
  | ok q' r =>
    simp only
    constructor
    · intro h'
      split at h'
      · rename_i hr
        cases h'
        refine ⟨r, rfl, ?_⟩
        exact dropWhile_nil.1 hr
      · cases h'
    · rintro ⟨b, hb, hB⟩
      cases hb
      have : r.dropWhile isSpace = [] := dropWhile_nil.2 hB
      rw [this]
  | fail => simp
  | err e => cases e <;> simp
  | oof => simp

/-- **C02.** Success means that the grammar consumed the whole preprocessed text, trailing blanks
excepted. -/
theorem C02_success (cfg : Config) (input : Str) (q : QuerySpec) :
    construct cfg input = .ok q ↔
      ∃ s t b, preprocess input = .ok s ∧ s = t ++ b ∧ (∀ c ∈ b, isSpace c = true) ∧
        parse cfg query true s = .ok q b := by
  unfold construct
  cases h : preprocess input with
  | error e => simp
  | ok s =>
    simp only [parseIt_ok, Except.ok.injEq]
    constructor
    · rintro ⟨b, h1, h2⟩
      obtain ⟨t, ht⟩ := parse_suffix h1
      exact ⟨s, t, b, rfl, ht.symm, h2, h1⟩
    · rintro ⟨s', t, b, rfl, -, h2, h1⟩
      exact ⟨b, h1, h2⟩

/-- **C02.** The error about unexpected terms quotes exactly the unconsumed rest, which is a
non-empty suffix of the text that does not start with a blank. -/
theorem C02_unexpected (cfg : Config) (input r : Str) :
    construct cfg input = .error (.unexpectedEnd r) ↔
      ∃ s t b q c u, preprocess input = .ok s ∧ s = t ++ (b ++ r) ∧ (∀ c ∈ b, isSpace c = true) ∧
        r = c :: u ∧ isSpace c = false ∧ parse cfg query true s = .ok q (b ++ r) := by
  unfold construct
  cases h : preprocess input with
  | error e =>
    simp only
    constructor
    · intro h'
      cases h'
      exfalso
      unfold preprocess at h
      split at h
      · unfold tweakInputString at h
        split at h
        · rename_i e' he
          cases h
          unfold checkAndAdjustParens at he
          have h1 : ∀ s d w, scanLeft s d w ≠ .error (.unexpectedEnd r) := by
            intro s
            induction s with
            | nil => intro d w h; cases h
            | cons c s ih =>
              intro d w h
              unfold scanLeft at h
              repeat' split at h
              all_goals first | exact ih _ _ h | cases h
          have h2 : ∀ w s d b, scanGeom w s d b ≠ .error (.unexpectedEnd r) := by
            intro w s
            induction s with
            | nil => intro d b h; cases h
            | cons c s ih =>
              intro d b h
              unfold scanGeom at h
              repeat' split at h
              all_goals first | exact ih _ _ h | cases h
          split at he
          · rename_i e'' he''; cases he; exact h1 _ _ _ he''
          · split at he
            · cases he
            · split at he
              · rename_i e'' he''; cases he; exact h2 _ _ _ _ he''
              · split at he <;> cases he
        · cases h
      · cases h
    · rintro ⟨s, t, b, q, c, u, h', -⟩; cases h'
  | ok s =>
    simp only [Except.ok.injEq]
    unfold parseIt
    rw [parseQuery_eq]
    cases h1 : parse cfg query true s with
    | ok q v =>
      simp only
      have hsplit : v = v.takeWhile isSpace ++ v.dropWhile isSpace :=
        List.takeWhile_append_dropWhile.symm
      constructor
      · intro h'
        split at h'
        · cases h'
        · rename_i c u hv
          cases h'
          obtain ⟨t, ht⟩ := parse_suffix h1
          refine ⟨s, t, v.takeWhile isSpace, q, c, u, rfl, ?_, takeWhile_all _ _, rfl,
            dropWhile_head hv, ?_⟩
          · rw [← hv, ← hsplit, ht]
          · rw [← hv, ← hsplit]; exact h1
      · rintro ⟨s', t, b, q', c, u, rfl, -, hb, rfl, hc, h2⟩
        rw [h1] at h2
        cases h2
        have e := takeWhile_eq hb (r := c :: u) (by intro d w h; cases h; exact hc)
        rw [e.2]
    | fail =>
      simp only
      constructor
      · intro h'; cases h'
      · rintro ⟨s', t, b, q', c, u, rfl, -, hb, rfl, hc, h2⟩; rw [h1] at h2; cases h2
    | err e =>
      constructor
      · intro h'; cases e <;> cases h'
      · rintro ⟨s', t, b, q', c, u, rfl, -, hb, rfl, hc, h2⟩; rw [h1] at h2; cases h2
    | oof =>
      simp only
      constructor
      · intro h'; cases h'
      · rintro ⟨s', t, b, q', c, u, rfl, -, hb, rfl, hc, h2⟩; rw [h1] at h2; cases h2

/-- the rest `y z` cannot be part of the query -/
example : construct ⟨fun _ => none, false⟩ cs!"SELECT a FROM t x  y z" =
    .error (.unexpectedEnd cs!"y z") := by kernel_rfl

/-- a query followed by blanks is accepted -/
example : ∃ q, construct ⟨fun _ => none, false⟩ cs!"SELECT a FROM t x \n " = .ok q :=
  accepted_iff.1 (by kernel_rfl)

/-! ### C03 -/

theorem matchLit_cs_append {w s t r : Str} (h : matchLit false w s = some (t, r)) : s = w ++ r := by
  obtain ⟨rfl, h2⟩ := matchLit_ok h
  rw [litOK_cs.1 h2]

/-- where a missing table name comes from -/
def MissingAt (cfg : Config) (s m : Str) : Prop :=
  cfg.mapping m = none ∧ (cs!"TAP_UPLOAD." ++ m) <:+: s

theorem missing_tap (cfg : Config) (rec : (n : Rule) → Bool → Str → Res (Attr n)) (sk : Bool)
    (s m : Str) (h : step rec (tapUpload cfg) sk s = .err (.noTable m)) : MissingAt cfg s m := by
  rw [run_tapUpload] at h
  split at h
  · cases h
  · rename_i t r ht
    have hs := matchLit_cs_append ht
    split at h
    · rename_i x u hx
      split at h
      · cases h
      · rename_i hm
        cases h
        refine ⟨hm, ?_⟩
        obtain ⟨b, hb, hB⟩ := identifier_append hx
        rw [blank_false] at hB
        subst hB
        obtain ⟨v, hv⟩ := skip_suffix sk s
        rw [← hv, hs, hb]
        exact ⟨v, u, by simp⟩
    · cases h

theorem parse_noTable {cfg : Config} {s m : Str}
    (h : parse cfg query true s = .err (.noTable m)) : MissingAt cfg s m := by
  have hK : ∀ s t m, t <:+ s → MissingAt cfg t m → MissingAt cfg s m := by
    rintro s t m h1 ⟨h2, h3⟩
    exact ⟨h2, h3.trans h1.isInfix⟩
  have hr : ∀ n sk s m, D cfg n sk s = .err (.noTable m) → MissingAt cfg s m := by
    intro n sk s m h
    refine run_noTable hK (g := grammar cfg) ?_ _ n sk s m h
    intro n
    rcases grammar_noThrow cfg n with rfl | h
    · right
      intro f sk s m h
      exact missing_tap cfg _ sk s m h
    · exact .inl h
  exact step_noTable hK den_suffix hr query query_noThrow true s m h

/-- **C03.** The errors of the constructor: parenthesis errors come from the preprocessing; the other
errors quote a suffix of the preprocessed text (all of it for the missing SELECT); a missing table is
one without an entry in the mapping whose name stands after `TAP_UPLOAD.` in the text. -/
theorem C03_errors (cfg : Config) (input : Str) (e : QErr) (h : construct cfg input = .error e) :
    (preprocess input = .error e ∧
      (e = .prematureI ∨ e = .inappropriateI ∨ e = .inappropriateII ∨ e = .prematureII)) ∨
    ∃ s, preprocess input = .ok s ∧
      ((∃ w r, e = .expecting w r ∧ r <:+ s) ∨ e = .expectingSelect s ∨
        (∃ c r, e = .unexpectedEnd (c :: r) ∧ (c :: r) <:+ s ∧ isSpace c = false) ∨
        (∃ m, e = .noTable m ∧ cfg.mapping m = none ∧ (cs!"TAP_UPLOAD." ++ m) <:+: s)) := by
  cases hp : preprocess input with
  | error e' =>
    left
    unfold construct at h
    rw [hp] at h
    cases h
    refine ⟨rfl, ?_⟩
    unfold preprocess at hp
    split at hp
    · unfold tweakInputString at hp
      split at hp
      · rename_i e' he
        cases hp
        unfold checkAndAdjustParens at he
        have h1 : ∀ s d w, scanLeft s d w = .error e → e = .prematureI := by
          intro s
          induction s with
          | nil => intro d w h; cases h
          | cons c s ih =>
            intro d w h
            unfold scanLeft at h
            repeat' split at h
            all_goals first | exact ih _ _ h | (cases h; rfl)
        have h2 : ∀ w s d b, scanGeom w s d b = .error e →
            e = .inappropriateII ∨ e = .prematureII := by
          intro w s
          induction s with
          | nil => intro d b h; cases h
          | cons c s ih =>
            intro d b h
            unfold scanGeom at h
            repeat' split at h
            all_goals first
              | exact ih _ _ h
              | (cases h; exact .inl rfl)
              | (cases h; exact .inr rfl)
        split at he
        · rename_i e'' he''; cases he; exact .inl (h1 _ _ _ he'')
        · split at he
          · cases he; exact .inr (.inl rfl)
          · split at he
            · rename_i e'' he''; cases he; exact .inr (.inr (h2 _ _ _ _ he''))
            · split at he <;> cases he
      · cases hp
    · cases hp
  | ok s =>
    right
    refine ⟨s, rfl, ?_⟩
    unfold construct at h
    rw [hp] at h
    simp only [parseIt] at h
    rw [parseQuery_eq] at h
    split at h
    · rename_i q r hq
      split at h
      · cases h
      · rename_i c u hr
        cases h
        refine .inr (.inr (.inl ⟨c, u, rfl, ?_, dropWhile_head hr⟩))
        rw [← hr]
        exact (List.dropWhile_suffix _).trans (parse_suffix hq)
    · cases h; exact .inr (.inl rfl)
    · rename_i w r hq
      cases h
      exact .inl ⟨w, r, rfl, parse_err_suffix hq⟩
    · rename_i m hq
      cases h
      exact .inr (.inr (.inr ⟨m, rfl, parse_noTable hq⟩))
    · rename_i hq; exact absurd hq (parse_not_oof query_wf)

/-- an upload that is not in the mapping -/
example : construct ⟨fun _ => none, false⟩ cs!"SELECT a FROM b, TAP_UPLOAD.t" =
    .error (.noTable cs!"t") := by kernel_rfl

/-- the text starts, after blanks, with the word `w` in some letter case -/
def StartsWith (w s : Str) : Prop :=
  ∃ b t r, s = b ++ (t ++ r) ∧ (∀ c ∈ b, isSpace c = true) ∧ SameCI t w

theorem startsWith_iff {w s : Str} (hw : ∃ c u, w = c :: u ∧ isLetter c = true) :
    StartsWith w s ↔ matchLit true w (skip true s) ≠ none := by
  constructor
  · rintro ⟨b, t, r, rfl, hb, ht⟩
    obtain ⟨c, u, rfl, hc⟩ := hw
    have hsk : skip true (b ++ (t ++ r)) = t ++ r := by
      apply skip_eq ⟨hb, by simp⟩
      intro d v hd
      cases t with
      | nil => simp [SameCI] at ht
      | cons x t =>
        simp only [List.cons_append, List.cons.injEq] at hd
        obtain ⟨rfl, -⟩ := hd
        simp only [SameCI, List.map_cons, List.cons.injEq] at ht
        have h1 : isLetter x = true := by
          rw [isLetter_toNat] at hc ⊢
          have h2 := congrArg Char.toNat ht.1
          rw [lowerC_toNat, lowerC_toNat] at h2
          split at h2 <;> split at h2 <;> omega
        exact isLetter_not_space h1
    rw [hsk]
    intro hn
    have := (matchLit_iff (ci := true) (w := c :: u) (s := t ++ r) (t := t) (r := r)).2
      ⟨rfl, litOK_ci.2 ht⟩
    rw [this] at hn; cases hn
  · intro h
    cases h1 : matchLit true w (skip true s) with
    | none => exact absurd h1 h
    | some x =>
      obtain ⟨t, r⟩ := x
      obtain ⟨h2, h3⟩ := matchLit_ok h1
      obtain ⟨b, hb, hB⟩ := skip_blank true s
      exact ⟨b, t, r, by rw [hb, h2], hB.1, litOK_ci.1 h3⟩

theorem run_wordX_fail {rec : (n : Rule) → Bool → Str → Res (Attr n)} {w s : Str} {sk : Bool} :
    step rec (wordX w) sk s = .fail ↔ matchLit true w (skip sk s) = none := by
  have e : step rec (wordX w) sk s = (step rec (kw w) false (skip sk s)).bind fun a r =>
      ((step rec andSpace false r).orElse (.err (.expect "space" r))).bind fun _ r' => .ok a r' := by
    simp only [wordX, run_lexeme, run_seqL, run_expect]
  have e2 : step rec (kw w) false (skip sk s) =
      match matchLit true w (skip sk s) with
      | some (t, r) => .ok t r
      | none => .fail := rfl
  rw [e, e2]
  cases h : matchLit true w (skip sk s) with
  | none => simp
  | some x =>
    obtain ⟨t, r⟩ := x
    simp only [Res.bind_ok]
    cases step rec andSpace false r <;> simp

theorem seqR_fail {rec : (n : Rule) → Bool → Str → Res (Attr n)} {α β : Type} {p : G α} {q : G β}
    {sk : Bool} {s : Str} (hq : q.noFail = true) :
    step rec (seqR p q) sk s = .fail ↔ step rec p sk s = .fail := by
  rw [run_seqR]
  cases h : step rec p sk s with
  | ok a r => simp [step_noFail q hq]
  | _ => simp

theorem seq_fail_left {rec : (n : Rule) → Bool → Str → Res (Attr n)} {α β : Type} {p : G α}
    {q : G β} {sk : Bool} {s : Str} (hq : q.noFail = true) :
    step rec (.seq p q) sk s = .fail ↔ step rec p sk s = .fail := by
  rw [run_seq]
  cases h : step rec p sk s with
  | ok a r =>
    have := step_noFail (rec := rec) q hq sk r
    cases h2 : step rec q sk r <;> simp_all
  | _ => simp

theorem map_fail {rec : (n : Rule) → Bool → Str → Res (Attr n)} {α β : Type} {p : G α} {f : α → β}
    {sk : Bool} {s : Str} : step rec (.map f p) sk s = .fail ↔ step rec p sk s = .fail := by
  rw [run_map]; cases step rec p sk s <;> simp

theorem withClause_fail {rec : (n : Rule) → Bool → Str → Res (Attr n)} {sk : Bool} {s : Str} :
    step rec withClause sk s = .fail ↔ matchLit true cs!"WITH" (skip sk s) = none := by
  unfold withClause
  rw [map_fail, seqR_fail rfl, run_wordX_fail]

theorem select_fail {rec : (n : Rule) → Bool → Str → Res (Attr n)} {sk : Bool} {s : Str} :
    step rec select sk s = .fail ↔ matchLit true cs!"SELECT" (skip sk s) = none := by
  unfold select
  rw [map_fail, seqR_fail rfl, run_wordX_fail]

theorem query_fail {cfg : Config} {s : Str} : parse cfg query true s = .fail ↔
    ∃ w r, parse cfg (optD With.dflt withClause) true s = .ok w r ∧
      matchLit true cs!"SELECT" (skip true r) = none := by
  unfold query queryWith
  rw [map_fail, run_seq]
  have hq : ∀ r, step (D cfg) ((sfwList whereClause).seq ((optD [] groupBy).seq
      ((optD SC.dflt having).seq (optD [] orderBy)))) true r = .fail ↔
        matchLit true cs!"SELECT" (skip true r) = none := by
    intro r
    rw [seq_fail_left rfl]
    unfold sfwList
    rw [map_fail, seq_fail_left rfl]
    unfold sfwWith
    rw [map_fail, seq_fail_left rfl, select_fail]
  cases h : step (D cfg) (optD With.dflt withClause) true s with
  | ok w r =>
    simp only [Res.bind_ok]
    constructor
    · intro h1
      refine ⟨w, r, h, (hq r).1 ?_⟩
      cases h2 : step (D cfg) ((sfwList whereClause).seq ((optD [] groupBy).seq
          ((optD SC.dflt having).seq (optD [] orderBy)))) true r <;> simp_all
    · rintro ⟨w', r', h', h1⟩
      simp only [parse, h] at h'; cases h'
      rw [(hq _).2 h1]; rfl
  | fail => exact absurd h (step_noFail _ rfl _ _)
  | err e => simp [parse, h]
  | oof => simp [parse, h]

/-- **C03, missing SELECT.** The message about a missing SELECT is given only when the text does not
start with SELECT. -/
theorem C03_expectingSelect (cfg : Config) (input s : Str)
    (h : construct cfg input = .error (.expectingSelect s)) :
    preprocess input = .ok s ∧ ¬ StartsWith cs!"SELECT" s := by
  have hp : preprocess input = .ok s := by
    rcases C03_errors cfg input _ h with ⟨-, h' | h' | h' | h'⟩ | ⟨s', hs, h'⟩
    · cases h'
    · cases h'
    · cases h'
    · cases h'
    · rcases h' with ⟨w, r, h', -⟩ | h' | ⟨c, r, h', -⟩ | ⟨m, h', -⟩
      · cases h'
      · cases h'; exact hs
      · cases h'
      · cases h'
  refine ⟨hp, ?_⟩
  unfold construct at h
  rw [hp] at h
  simp only [parseIt] at h
  rw [parseQuery_eq] at h
  split at h
  · split at h <;> cases h
  · rename_i hq
    obtain ⟨w, r, h1, h2⟩ := query_fail.1 hq
    rw [startsWith_iff ⟨'S', _, rfl, by decide⟩]
    intro hne
    have h3 : parse cfg withClause true s = .fail := by
      refine withClause_fail.2 ?_
      cases h4 : matchLit true cs!"WITH" (skip true s) with
      | none => rfl
      | some x =>
        exfalso
        cases h5 : matchLit true cs!"SELECT" (skip true s) with
        | none => exact hne h5
        | some y =>
          obtain ⟨t, u⟩ := x
          obtain ⟨t', u'⟩ := y
          obtain ⟨h6, h7⟩ := matchLit_ok h4
          obtain ⟨h8, h9⟩ := matchLit_ok h5
          rw [litOK_ci] at h7 h9
          cases t with
          | nil => simp at h7
          | cons c t =>
            cases t' with
            | nil => simp at h9
            | cons c' t' =>
              rw [h6] at h8
              simp only [List.cons_append, List.cons.injEq] at h8
              obtain ⟨rfl, -⟩ := h8
              simp only [List.map_cons, List.cons.injEq] at h7 h9
              have := h7.1.symm.trans h9.1
              revert this; decide
    have h4 : parse cfg (optD With.dflt withClause) true s = .ok With.dflt s := by
      simp only [parse, run_optD]
      rw [show step (D cfg) withClause true s = .fail from h3]
      rfl
    rw [h1] at h4
    cases h4
    exact hne h2
  · cases h
  · cases h
  · cases h

/-- **C03, missing SELECT.** A text that starts with neither SELECT nor WITH gives this message. -/
theorem C03_expectingSelect_complete (cfg : Config) (input s : Str) (hp : preprocess input = .ok s)
    (h1 : ¬ StartsWith cs!"SELECT" s) (h2 : ¬ StartsWith cs!"WITH" s) :
    construct cfg input = .error (.expectingSelect s) := by
  rw [startsWith_iff ⟨'S', _, rfl, by decide⟩, ne_eq, Classical.not_not] at h1
  rw [startsWith_iff ⟨'W', _, rfl, by decide⟩, ne_eq, Classical.not_not] at h2
  have h3 : parse cfg withClause true s = .fail := withClause_fail.2 h2
  have h4 : parse cfg (optD With.dflt withClause) true s = .ok With.dflt s := by
    simp only [parse, run_optD]
    rw [show step (D cfg) withClause true s = .fail from h3]
    rfl
  have h5 := query_fail.2 ⟨_, _, h4, h1⟩
  unfold construct
  rw [hp]
  simp only [parseIt]
  rw [parseQuery_eq, h5]

example : construct ⟨fun _ => none, false⟩ cs!"  DELETE FROM t" =
    .error (.expectingSelect cs!"  DELETE FROM t") := by kernel_rfl

/-! ### C11, C12 -/

theorem agree_construct {X : Err → Prop} {S : Str → Prop} (hS : ∀ s t, t <:+ s → S s → S t)
    {cfg cfg' : Config} (hres : cfg.residue = cfg'.residue)
    (ht : ∀ f f' sk s, S s → Agree X (step (run (grammar cfg) f) (tapUpload cfg) sk s)
      (step (run (grammar cfg') f') (tapUpload cfg') sk s)) (s : Str) (hs : S s) :
    Agree X (parse cfg query true s) (parse cfg' query true s) := by
  rw [← parseQuery_eq, ← parseQuery_eq]
  refine step_agree hS (run_suffix _ _) (run_agree hS ?_ _) query true s hs
  intro n
  cases n with
  | tap => right; intro f sk s hs; exact ht f f sk s hs
  | sc => left; simp only [grammar, hres]
  | _ => left; rfl

/-- `cfg'` knows every table that `cfg` knows, under the same name -/
def Extends (cfg cfg' : Config) : Prop :=
  cfg.residue = cfg'.residue ∧ ∀ x t, cfg.mapping x = some t → cfg'.mapping x = some t

/-- **C12.** A larger table mapping changes no outcome except missing tables. -/
theorem C12_extend_outcome (cfg cfg' : Config) (he : Extends cfg cfg') (input : Str) :
    construct cfg input = construct cfg' input ∨ ∃ m, construct cfg input = .error (.noTable m) := by
  unfold construct
  cases hp : preprocess input with
  | error e => exact .inl rfl
  | ok s =>
    simp only [parseIt]
    rw [parseQuery_eq, parseQuery_eq]
    have := agree_construct (X := fun e => ∃ m, e = .noTable m) (S := fun _ => True)
      (fun _ _ _ h => h) he.1 (cfg := cfg) (cfg' := cfg') ?_ s trivial
    · rcases this with h | ⟨e, ⟨m, rfl⟩, h⟩
      · left; rw [h]
      · right; exact ⟨m, by rw [h]⟩
    · intro f f' sk s _
      rw [run_tapUpload, run_tapUpload]
      split
      · exact .inl rfl
      · rename_i t r _
        have e : parse cfg identifier false r = parse cfg' identifier false r := by
          rw [← step_identifier (D cfg') cfg]
        rw [e]
        split
        · rename_i x u _
          cases h : cfg.mapping x with
          | some t => rw [he.2 x t h]; exact .inl rfl
          | none => exact .inr ⟨_, ⟨x, rfl⟩, rfl⟩
        · exact .inl rfl

/-- **C12.** What was accepted stays accepted, with the same query. -/
theorem C12_extend (cfg cfg' : Config) (he : Extends cfg cfg') (input : Str) (q : QuerySpec)
    (h : construct cfg input = .ok q) : construct cfg' input = .ok q := by
  rcases C12_extend_outcome cfg cfg' he input with h' | ⟨m, h'⟩
  · rw [← h', h]
  · rw [h] at h'; cases h'

/-- a mapping with one upload and an extension of it -/
def exampleMap : Str → Option Str := fun x => if x = cs!"t" then some cs!"real_t" else none

example : Extends ⟨exampleMap, false⟩ ⟨fun x => if x = cs!"u" then some cs!"other" else exampleMap x, false⟩ := by
  refine ⟨rfl, ?_⟩
  intro x t h
  simp only [exampleMap] at h ⊢
  split at h
  · rename_i hx; subst hx; exact h
  · cases h

example : ∃ q, construct ⟨exampleMap, false⟩ cs!"SELECT a FROM TAP_UPLOAD.t" = .ok q := by
  exact accepted_iff.1 (by kernel_rfl)

/-- **C11.** Without `TAP_UPLOAD.` in the (preprocessed) text the table mapping is irrelevant. -/
theorem C11_mapping_irrelevant (cfg cfg' : Config) (hres : cfg.residue = cfg'.residue) (input : Str)
    (h : ∀ s, preprocess input = .ok s → ¬ cs!"TAP_UPLOAD." <:+: s) :
    construct cfg input = construct cfg' input := by
  unfold construct
  cases hp : preprocess input with
  | error e => rfl
  | ok s =>
    simp only [parseIt]
    rw [parseQuery_eq, parseQuery_eq]
    have := agree_construct (X := fun e => False) (S := fun s => ¬ cs!"TAP_UPLOAD." <:+: s)
      (fun s t hst h ht => h (ht.trans hst.isInfix)) hres (cfg := cfg) (cfg' := cfg') ?_ s (h s hp)
    · rcases this with h | ⟨e, h, -⟩
      · rw [h]
      · exact h.elim
    · intro f f' sk s hs
      rw [run_tapUpload, run_tapUpload]
      split
      · exact .inl rfl
      · rename_i t r ht
        exfalso
        apply hs
        obtain ⟨v, hv⟩ := skip_suffix sk s
        refine ⟨v, r, ?_⟩
        rw [← hv, matchLit_cs_append ht, List.append_assoc]

/-- a text that is rewritten by the preprocessing and does not mention uploads -/
example : ∃ s, preprocess cs!"SELECT a FROM t WHERE x>1 AND CONTAINS(b,c)=1" = .ok s ∧
    ¬ cs!"TAP_UPLOAD." <:+: s :=
  ⟨cs!"SELECT a FROM t WHERE CONTAINS(b,c)=1 AND x>1", by kernel_rfl, by decide⟩

end Adql
