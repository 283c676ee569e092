import Verif.Model.LexQuoted
import Verif.Peg.Calm

/-!
# Exact description of string literals (init_literals.cxx L38-L55)
-/

namespace Adql

open P Spec

@[simp] theorem wf_calm_false {b : Str} : skip false b = b := rfl

theorem parse_calm {cfg : Config} {α : Type} {p : G α} (h1 : p.calm = true)
    (h2 : P.wf rank 4 4 p = true) (sk : Bool) (s : Str) :
    (∃ a r, parse cfg p sk s = .ok a r) ∨ parse cfg p sk s = .fail := by
  cases h : parse cfg p sk s with
  | ok a r => exact .inl ⟨a, r, rfl⟩
  | fail => exact .inr rfl
  | err e => exact absurd h (step_calm p h1 sk s e)
  | oof => exact absurd h (parse_not_oof h2)

/-- A quoted part is taken exactly up to its closing quote. -/
theorem strPart_iff {cfg : Config} {s a r : Str} : parse cfg strPartG false s = .ok a r ↔
    s = a ++ r ∧ StrPart a ∧ NotHead '\'' r := by
  simp only [parse, run_strPart]
  constructor
  · intro h
    cases s with
    | nil => cases h
    | cons c u =>
      simp only at h
      split at h
      · rename_i hc
        obtain ⟨rfl, h2⟩ := hc
        rcases qbody_rest '\'' u with h3 | ⟨v, h3, h4⟩
        · exact absurd h3 h2
        · rw [h3] at h; cases h
          refine ⟨?_, ⟨_, rfl, qbody_body _ _⟩, h4⟩
          have := qbody_append '\'' u
          rw [h3] at this
          simp only [List.cons_append, List.cons.injEq, true_and, List.append_assoc,
            List.nil_append, List.drop_succ_cons, List.drop_zero]
          exact this.symm
      · cases h
  · rintro ⟨rfl, ⟨u, rfl, h2⟩, hr⟩
    simp [qbody_of_body h2 hr]

/-- Exact result of a comment. -/
theorem run_comment {cfg : Config} {s : Str} : parse cfg comment false s = match s with
    | '-' :: '-' :: u =>
      match u.dropWhile (fun c => c != '\n') with
      | [] => .fail
      | _ :: v => .ok ('-' :: '-' :: u.takeWhile (fun c => c != '\n') ++ ['\n']) v
    | _ => .fail := by
  simp only [parse, comment, run_lexeme, run_cat, run_chS, run_plusS_chS, run_manyS_chS,
    wf_calm_false]
  match s with
  | [] => rfl
  | [c] => by_cases h : c = '-' <;> simp [h]
  | c :: d :: u =>
    by_cases h : c = '-'
    · subst h
      by_cases h : d = '-'
      · subst h
        have h0 : ∀ u : Str, (List.takeWhile (fun c => c == '-') u ++
            (List.dropWhile (fun c => c == '-') u).takeWhile (fun c => c != '\n')) =
              u.takeWhile (fun c => c != '\n') ∧
            (List.dropWhile (fun c => c == '-') u).dropWhile (fun c => c != '\n') =
              u.dropWhile (fun c => c != '\n') := by
          intro u
          induction u with
          | nil => exact ⟨rfl, rfl⟩
          | cons c u ih =>
            by_cases h : c = '-'
            · subst h
              simpa using ih
            · simp [h]
        obtain ⟨h1, h2⟩ := h0 u
        simp only [beq_self_eq_true, List.takeWhile_cons, List.dropWhile_cons, if_true,
          Res.bind_ok, List.isEmpty_cons, Bool.false_eq_true, if_false, h2]
        cases h3 : u.dropWhile (fun c => c != '\n') with
        | nil => rfl
        | cons x v =>
          have : x = '\n' := by
            have : ∀ (w : Str), w.dropWhile (fun c => c != '\n') = x :: v → x = '\n' := by
              intro w
              induction w with
              | nil => simp
              | cons y w ih =>
                intro h
                by_cases hy : y = '\n'
                · subst hy; simp at h; exact h.1.symm
                · rw [List.dropWhile_cons, if_pos (by simpa using hy)] at h; exact ih h
            exact this u h3
          subst this
          simp [← h1]
      · simp [h]
    · simp [h]

/-- Exact result of one separator. -/
theorem separator_iff {cfg : Config} {s a r : Str} : parse cfg separator false s = .ok a r ↔
    s = a ++ r ∧ Sep a := by
  have e : parse cfg separator false s =
      (parse cfg comment false s).orElse ((parse cfg (chS (· == ' ')) false s).orElse
        (parse cfg (chS (· == '\n')) false s)) := by
    simp only [parse, separator, run_lexeme, run_alt]; rfl
  rw [e, run_comment]
  simp only [parse, run_chS]
  constructor
  · intro h
    match s, h with
    | [], h => cases h
    | c :: u, h =>
      by_cases hc : c = '-'
      · subst hc
        match u, h with
        | [], h => cases h
        | d :: u, h =>
          by_cases hd : d = '-'
          · subst hd
            simp only at h
            cases h3 : u.dropWhile (fun c => c != '\n') with
            | nil => simp [h3] at h
            | cons x v =>
              rw [h3] at h
              simp only [Res.orElse_ok] at h
              cases h
              have h4 := List.takeWhile_append_dropWhile (p := fun c => c != '\n') (l := u)
              rw [h3] at h4
              have h5 : x = '\n' := by
                have := List.head?_dropWhile_not (fun c => c != '\n') u
                rw [h3] at this
                simpa using this
              subst h5
              refine ⟨?_, .comment ?_⟩
              · simp only [List.cons_append, List.cons.injEq, true_and, List.append_assoc,
                  List.nil_append]
                exact h4.symm
              · intro hmem
                have := takeWhile_all (fun c => c != '\n') u _ hmem
                simp at this
          · simp [hd] at h
      · by_cases h1 : c = ' '
        · subst h1; simp at h; obtain ⟨rfl, rfl⟩ := h; exact ⟨rfl, .blank⟩
        · by_cases h2 : c = '\n'
          · subst h2; simp at h; obtain ⟨rfl, rfl⟩ := h; exact ⟨rfl, .newline⟩
          · simp [hc, h1, h2] at h
  · rintro ⟨rfl, hs⟩
    cases hs with
    | blank => simp
    | newline => simp
    | @comment u hu =>
      have h1 : ∀ u : Str, '\n' ∉ u → (u ++ '\n' :: r).takeWhile (fun c => c != '\n') = u ∧
          (u ++ '\n' :: r).dropWhile (fun c => c != '\n') = '\n' :: r := by
        intro u hu
        induction u with
        | nil => simp
        | cons c u ih =>
          have hc : c ≠ '\n' := fun h => hu (by simp [h])
          have := ih (fun h => hu (by simp [h]))
          simp [hc, this.1, this.2]
      obtain ⟨h1, h2⟩ := h1 u hu
      simp [h1, h2]

theorem sep_head {t : Str} (h : Sep t) (r : Str) : NotHead '\'' (t ++ r) ∧ 0 < t.length := by
  cases h <;> exact ⟨by intro v; simp, by simp⟩

theorem seps_head {t : Str} (h : Seps t) (r : Str) : NotHead '\'' (t ++ r) ∧ 0 < t.length := by
  cases h with
  | one h => exact sep_head h r
  | cons h h' =>
    rw [List.append_assoc]
    refine ⟨(sep_head h _).1, ?_⟩
    have := (sep_head h []).2
    simp; omega

theorem quote_not_sep {cfg : Config} {v : Str} : parse cfg separator false ('\'' :: v) = .fail := by
  rcases parse_calm (cfg := cfg) (p := separator) rfl (WF.wf_separator 4) false ('\'' :: v) with
    ⟨a, r, h⟩ | h
  · obtain ⟨h1, h2⟩ := separator_iff.1 h
    exact absurd h1.symm ((sep_head h2 r).1 v)
  · exact h

theorem iter_sep {cfg : Config} {s : Str} {l : List Str} {r : Str}
    (h : Iter (parse cfg separator false) s l r) :
    s = l.flatten ++ r ∧ (l = [] ∨ Seps l.flatten) := by
  induction h with
  | nil => exact ⟨rfl, .inl rfl⟩
  | @cons s a r as r' h1 h2 h3 ih =>
    obtain ⟨rfl, hs⟩ := separator_iff.1 h1
    obtain ⟨rfl, h4⟩ := ih
    refine ⟨by simp, .inr ?_⟩
    rcases h4 with rfl | h4
    · simpa using Seps.one hs
    · simpa using Seps.cons hs h4

/-- Exact result of the separators in front of a quote. -/
theorem seps_ok {cfg : Config} {s a r : Str} (h : parse cfg (plusS separator) false s = .ok a r) :
    s = a ++ r ∧ Seps a := by
  simp only [parse, plusS, run_cat, manyS, run_map] at h
  cases h1 : step (D cfg) separator false s with
  | ok b u =>
    rw [h1] at h
    simp only [Res.bind_ok] at h
    obtain ⟨rfl, hb⟩ := separator_iff.1 h1
    cases h2 : step (D cfg) (.star separator) false u with
    | ok l v =>
      rw [h2] at h
      simp only [Res.bind_ok] at h
      cases h
      obtain ⟨rfl, h4⟩ := iter_sep (step_star_ok.1 h2)
      refine ⟨by simp, ?_⟩
      rcases h4 with rfl | h4
      · simpa using Seps.one hb
      · exact Seps.cons hb h4
    | _ => rw [h2] at h; cases h
  | _ => rw [h1] at h; cases h

theorem seps_complete {cfg : Config} {x v : Str} (h : Seps x) :
    parse cfg (plusS separator) false (x ++ '\'' :: v) = .ok x ('\'' :: v) := by
  have key : ∀ x, Seps x → ∃ b u l, x = b ++ u ∧ Sep b ∧ l.flatten = u ∧
      Iter (parse cfg separator false) (u ++ '\'' :: v) l ('\'' :: v) := by
    intro x h
    induction h with
    | @one t h => exact ⟨t, [], [], by simp, h, rfl, .nil quote_not_sep⟩
    | @cons t u h _ ih =>
      obtain ⟨b, u', l, rfl, h1, h2, h3⟩ := ih
      refine ⟨t, b ++ u', b :: l, rfl, h, by simp [h2], ?_⟩
      refine .cons (r := u' ++ '\'' :: v) (separator_iff.2 ⟨by simp, h1⟩) ?_ h3
      have := (sep_head h1 []).2
      simp; omega
  obtain ⟨b, u, l, rfl, h1, h2, h3⟩ := key x h
  have e1 : step (D cfg) separator false (b ++ u ++ '\'' :: v) = .ok b (u ++ '\'' :: v) :=
    separator_iff.2 ⟨by simp, h1⟩
  have e2 : step (D cfg) (.star separator) false (u ++ '\'' :: v) = .ok l ('\'' :: v) :=
    step_star_ok.2 h3
  simp only [parse, plusS, run_cat, manyS, run_map, e1, e2, Res.bind_ok, h2]

/-- separators and a further quoted part -/
def strContG : G Str := cat (plusS separator) strPartG

theorem strPart_head {p : Str} (h : StrPart p) : ∃ v, p = '\'' :: v := by
  obtain ⟨b, rfl, -⟩ := h; exact ⟨b ++ ['\''], rfl⟩

theorem strCont_iff {cfg : Config} {s a r : Str} : parse cfg strContG false s = .ok a r ↔
    ∃ x p, a = x ++ p ∧ s = x ++ (p ++ r) ∧ Seps x ∧ StrPart p ∧ NotHead '\'' r := by
  simp only [parse, strContG, run_cat]
  constructor
  · intro h
    cases h1 : step (D cfg) (plusS separator) false s with
    | ok x u =>
      rw [h1] at h
      simp only [Res.bind_ok] at h
      cases h2 : step (D cfg) strPartG false u with
      | ok p v =>
        rw [h2] at h; cases h
        obtain ⟨rfl, hx⟩ := seps_ok h1
        obtain ⟨rfl, hp, hr⟩ := strPart_iff.1 h2
        exact ⟨x, p, rfl, rfl, hx, hp, hr⟩
      | _ => rw [h2] at h; cases h
    | _ => rw [h1] at h; cases h
  · rintro ⟨x, p, rfl, rfl, hx, hp, hr⟩
    obtain ⟨v, rfl⟩ := strPart_head hp
    have e1 : step (D cfg) (plusS separator) false (x ++ ('\'' :: v ++ r)) =
        .ok x ('\'' :: (v ++ r)) := seps_complete hx
    have e2 : step (D cfg) strPartG false ('\'' :: (v ++ r)) = .ok ('\'' :: v) r :=
      strPart_iff.2 ⟨rfl, hp, hr⟩
    rw [e1]; simp only [Res.bind_ok, e2]

theorem strCont_calm : strContG.calm = true := rfl

theorem strCont_wf : P.wf rank 4 4 strContG = true := rfl

/-- No further part of the literal follows. -/
def NoStrCont (r : Str) : Prop :=
  ¬ ∃ x p v, r = x ++ (p ++ v) ∧ Seps x ∧ StrPart p ∧ NotHead '\'' v

theorem strTail_head {t r : Str} (h : StrTail t) (hr : NotHead '\'' r) : NotHead '\'' (t ++ r) := by
  cases h with
  | nil => exact hr
  | cons hx _ _ => rw [List.append_assoc]; exact (seps_head hx _).1

/-- Exact result of the repeated parts. -/
theorem strTail_iff {cfg : Config} {s a r : Str} (hs : NotHead '\'' s) :
    parse cfg (manyS strContG) false s = .ok a r ↔
      s = a ++ r ∧ StrTail a ∧ NotHead '\'' r ∧ NoStrCont r := by
  have e : parse cfg (manyS strContG) false s =
      (parse cfg (.star strContG) false s).bind fun l r => .ok l.flatten r := by
    simp only [parse, manyS, run_map]
  have nil : ∀ r, parse cfg strContG false r = .fail ↔ NoStrCont r := by
    intro r
    constructor
    · rintro h ⟨x, p, v, rfl, hx, hp, hv⟩
      have := strCont_iff (cfg := cfg) |>.2 ⟨x, p, rfl, rfl, hx, hp, hv⟩
      rw [this] at h; cases h
    · intro h
      rcases parse_calm (cfg := cfg) strCont_calm strCont_wf false r with ⟨a, u, h1⟩ | h1
      · obtain ⟨x, p, -, h2, hx, hp, hu⟩ := strCont_iff.1 h1
        exact absurd ⟨x, p, u, h2, hx, hp, hu⟩ h
      · exact h1
  rw [e]
  constructor
  · intro h
    cases h1 : parse cfg (.star strContG) false s with
    | ok l u =>
      rw [h1] at h; cases h
      have key : ∀ s l r, Iter (parse cfg strContG false) s l r → NotHead '\'' s →
          s = l.flatten ++ r ∧ StrTail l.flatten ∧ NotHead '\'' r ∧ NoStrCont r := by
        intro s l r hi
        induction hi with
        | nil h => intro hs; exact ⟨rfl, .nil, hs, (nil _).1 h⟩
        | cons h2 _ _ ih =>
          intro _
          obtain ⟨x, p, rfl, rfl, hx, hp, hr⟩ := strCont_iff.1 h2
          obtain ⟨rfl, h3, h4, h5⟩ := ih hr
          refine ⟨by simp, ?_, h4, h5⟩
          simpa using StrTail.cons hx hp h3
      exact key _ _ _ (step_star_ok.1 h1) hs
    | _ => rw [h1] at h; cases h
  · rintro ⟨rfl, ht, hr, hc⟩
    have key : ∀ a, StrTail a → ∃ l, l.flatten = a ∧
        Iter (parse cfg strContG false) (a ++ r) l r := by
      intro a ha
      induction ha with
      | nil => exact ⟨[], rfl, .nil ((nil _).2 hc)⟩
      | @cons x p t hx hp ht ih =>
        obtain ⟨l, rfl, hi⟩ := ih
        refine ⟨(x ++ p) :: l, by simp, .cons (r := l.flatten ++ r) ?_ ?_ hi⟩
        · exact strCont_iff.2 ⟨x, p, rfl, by simp, hx, hp, strTail_head ht hr⟩
        · have := (seps_head hx []).2
          simp; omega
    obtain ⟨l, rfl, hi⟩ := key a ht
    have : parse cfg (.star strContG) false (l.flatten ++ r) = .ok l r := step_star_ok.2 hi
    rw [this]; rfl

/-- Exact result of `character_string_literal`. -/
theorem charString_iff {cfg : Config} {sk : Bool} {s a r : Str} :
    parse cfg charString sk s = .ok a r ↔
      ∃ b, s = b ++ (a ++ r) ∧ Blank sk b ∧ StrLit a ∧ NotHead '\'' r ∧ NoStrCont r := by
  have e : parse cfg charString sk s =
      (parse cfg strPartG false (skip sk s)).bind fun a r =>
        (parse cfg (manyS strContG) false r).bind fun b r' => .ok (a ++ b) r' := by
    have : charString = .lexeme (cat strPartG (manyS strContG)) := rfl
    rw [this]
    simp only [parse, run_lexeme, run_cat]
  rw [e]
  constructor
  · intro h
    obtain ⟨b, hb, hB⟩ := skip_blank sk s
    cases h1 : parse cfg strPartG false (skip sk s) with
    | ok p u =>
      rw [h1] at h
      simp only [Res.bind_ok] at h
      obtain ⟨hs, hp, hu⟩ := strPart_iff.1 h1
      cases h2 : parse cfg (manyS strContG) false u with
      | ok t v =>
        rw [h2] at h; cases h
        obtain ⟨rfl, ht, hv, hc⟩ := (strTail_iff hu).1 h2
        refine ⟨b, ?_, hB, ⟨p, t, rfl, hp, ht⟩, hv, hc⟩
        rw [hb, hs, List.append_assoc]
      | _ => rw [h2] at h; cases h
    | _ => rw [h1] at h; cases h
  · rintro ⟨b, rfl, hB, ⟨p, t, rfl, hp, ht⟩, hr, hc⟩
    have hsk : skip sk (b ++ (p ++ t ++ r)) = p ++ (t ++ r) := by
      rw [List.append_assoc]
      apply skip_eq hB
      intro c v hv
      obtain ⟨w, rfl⟩ := strPart_head hp
      simp at hv; rw [← hv.1]; decide
    have hh := strTail_head ht hr
    rw [hsk, strPart_iff.2 ⟨rfl, hp, hh⟩]
    simp only [Res.bind_ok]
    rw [(strTail_iff hh).2 ⟨rfl, ht, hr, hc⟩]
    rfl

end Adql
