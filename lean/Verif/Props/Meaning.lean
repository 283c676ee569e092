import Verif.Props.Preprocess
import Verif.Spec.Boolean
import Verif.Model.Print

/-!
# C30, C31: the meaning of the rewritten condition
-/

namespace Adql

open Spec

section
variable {α : Type} (ρ : α → Bool)

theorem evalFrom_append_and : ∀ (acc : Bool) (u v : List (Conn × α)), (∀ x ∈ u, x.1 = .and) →
    evalFrom ρ acc (u ++ v) = evalFrom ρ (evalFrom ρ acc u) v
  | acc, [], v, _ => rfl
  | acc, (.and, a) :: u, v, h => by
    simp only [List.cons_append, evalFrom]
    exact evalFrom_append_and _ u v fun x hx => h x (by simp [hx])
  | acc, (.or, a) :: u, v, h => by
    have := h (.or, a) (by simp)
    cases this

theorem evalFrom_and : ∀ (acc : Bool) (u : List (Conn × α)), (∀ x ∈ u, x.1 = .and) →
    evalFrom ρ acc u = (acc && evalFrom ρ true u)
  | acc, [], _ => by simp [evalFrom]
  | acc, (.and, a) :: u, h => by
    simp only [evalFrom, Bool.true_and]
    rw [evalFrom_and _ u fun x hx => h x (by simp [hx]),
      evalFrom_and (ρ a) u fun x hx => h x (by simp [hx]), Bool.and_assoc]
  | acc, (.or, a) :: u, h => by
    have := h (.or, a) (by simp)
    cases this

/-- **C30.** When the condition on the left has no OR at its outermost level, the rewritten condition
has the same value for every truth assignment, whatever follows on the right. -/
theorem C30_equivalent_partial (l : CondSeq α) (g : α) (r : Option (CondSeq α)) (hl : l.noOr) :
    (moved l g r).eval ρ = (written l g r).eval ρ := by
  obtain ⟨l0, ls⟩ := l
  simp only [CondSeq.noOr] at hl
  have key : ∀ t, evalFrom ρ (ρ g) ((Conn.and, l0) :: (ls ++ t)) =
      evalFrom ρ (ρ l0) (ls ++ (Conn.and, g) :: t) := by
    intro t
    simp only [evalFrom]
    rw [evalFrom_append_and ρ _ _ _ hl, evalFrom_append_and ρ _ _ _ hl]
    simp only [evalFrom]
    rw [evalFrom_and ρ _ _ hl, evalFrom_and ρ (ρ l0) _ hl]
    congr 1
    cases ρ g <;> cases ρ l0 <;> simp
  cases r with
  | none =>
    have := key []
    simpa [moved, written, CondSeq.eval, CondSeq.join, CondSeq.atom] using this
  | some r =>
    have := key ((Conn.and, r.first) :: r.rest)
    simpa [moved, written, CondSeq.eval, CondSeq.join, CondSeq.atom] using this

/-- **C30**, the same when the left condition and the geometry were enclosed in a pair of parentheses
that the rewrite removes. -/
theorem C30_equivalent_parens_partial (l : CondSeq α) (g : α) (r : CondSeq α) (hl : l.noOr) :
    (moved l g (some r)).eval ρ =
      evalFrom ρ ((written l g none).eval ρ) ((Conn.and, r.first) :: r.rest) := by
  rw [C30_equivalent_partial ρ l g (some r) hl]
  obtain ⟨l0, ls⟩ := l
  simp only [CondSeq.noOr] at hl
  simp only [written, CondSeq.eval, CondSeq.join, CondSeq.atom]
  rw [evalFrom_append_and]
  intro x hx
  rcases List.mem_append.1 hx with hx | hx
  · exact hl x hx
  · simp only [List.mem_cons, List.not_mem_nil, or_false] at hx
    rw [hx]

end

theorem evalFrom_false {α : Type} {ρ : α → Bool} : ∀ (u : List (Conn × α)), (∀ x ∈ u, ρ x.2 = false) →
    evalFrom ρ false u = false
  | [], _ => rfl
  | (.and, a) :: u, h => by
    simp only [evalFrom, Bool.false_and]
    exact evalFrom_false u fun x hx => h x (by simp [hx])
  | (.or, a) :: u, h => by
    simp only [evalFrom, Bool.false_or]
    rw [h (.or, a) (by simp)]
    exact evalFrom_false u fun x hx => h x (by simp [hx])

/-- **C30 is violated** whenever the left condition has an OR at its outermost level: with independent
atoms (here the positions in the text) there is a truth assignment for which the rewritten condition
has another value.  The atoms before the first OR are true, all others are false. -/
theorem C30_violated (l : CondSeq Nat) (g : Nat) (r : Option (CondSeq Nat)) (hl : ¬ l.noOr)
    (hdist : (l.atoms ++ g :: (r.map CondSeq.atoms).getD []).Nodup) :
    ∃ ρ : Nat → Bool, (written l g r).eval ρ = true ∧ (moved l g r).eval ρ = false := by
  obtain ⟨l0, ls⟩ := l
  -- split at the first OR
  have hsplit : ∀ ls : List (Conn × Nat), (¬ ∀ x ∈ ls, x.1 = .and) →
      ∃ u a v, ls = u ++ (Conn.or, a) :: v ∧ ∀ x ∈ u, x.1 = .and := by
    intro ls
    induction ls with
    | nil => intro h; exact absurd (by simp) h
    | cons x ls ih =>
      intro h
      obtain ⟨c, b⟩ := x
      cases c with
      | or => exact ⟨[], b, ls, rfl, by simp⟩
      | and =>
        obtain ⟨u, a, v, rfl, hu⟩ := ih (fun h' => h (by simpa using h'))
        exact ⟨(.and, b) :: u, a, v, rfl, by simpa using hu⟩
  obtain ⟨u, a, v, rfl, hu⟩ := hsplit ls hl
  have hd : ∀ n ∈ a :: v.map (·.2) ++ g :: (r.map CondSeq.atoms).getD [],
      (l0 :: u.map (·.2)).contains n = false := by
    have e : CondSeq.atoms ⟨l0, u ++ (Conn.or, a) :: v⟩ ++ g :: (r.map CondSeq.atoms).getD [] =
        (l0 :: u.map (·.2)) ++ (a :: v.map (·.2) ++ g :: (r.map CondSeq.atoms).getD []) := by
      simp [CondSeq.atoms]
    rw [e, List.nodup_append] at hdist
    intro n hn
    cases hc : (l0 :: u.map (·.2)).contains n with
    | false => rfl
    | true => exact absurd rfl (hdist.2.2 n (by simpa using hc) n hn)
  refine ⟨fun n => (l0 :: u.map (·.2)).contains n, ?_, ?_⟩
  · have h1 : evalFrom (fun n => (l0 :: u.map (·.2)).contains n) true u = true := by
      have : ∀ (w : List (Conn × Nat)), (∀ x ∈ w, x.1 = .and) →
          (∀ x ∈ w, (l0 :: u.map (·.2)).contains x.2 = true) →
          evalFrom (fun n => (l0 :: u.map (·.2)).contains n) true w = true := by
        intro w
        induction w with
        | nil => intros; rfl
        | cons x w ih =>
          intro ha hb
          obtain ⟨c, b⟩ := x
          have hc := ha (c, b) (by simp)
          simp only at hc
          subst hc
          simp only [evalFrom, Bool.true_and]
          rw [hb (Conn.and, b) (by simp)]
          exact ih (fun x hx => ha x (by simp [hx])) (fun x hx => hb x (by simp [hx]))
      exact this u hu fun x hx => by simp; exact .inr ⟨x.1, hx⟩
    have h2 : ∀ t, evalFrom (fun n => (l0 :: u.map (·.2)).contains n)
        ((l0 :: u.map (·.2)).contains l0) (u ++ (Conn.or, a) :: t) = true := by
      intro t
      rw [evalFrom_append_and _ _ _ _ hu]
      simp only [List.contains_cons, beq_self_eq_true, Bool.true_or] at h1 ⊢
      rw [h1]
      rfl
    cases r <;> simp only [written, CondSeq.eval, CondSeq.join, CondSeq.atom, List.append_assoc,
      List.cons_append, List.nil_append] <;> exact h2 _
  · have hg := hd g (by simp)
    have hv : ∀ x ∈ v, (l0 :: u.map (·.2)).contains x.2 = false := fun x hx =>
      hd x.2 (by simp only [List.cons_append, List.mem_cons, List.mem_append, List.mem_map]
                 exact .inr (.inl ⟨x, hx, rfl⟩))
    have ha := hd a (by simp)
    have hfin : ∀ t : List (Conn × Nat), (∀ x ∈ t, (l0 :: u.map (·.2)).contains x.2 = false) →
        evalFrom (fun n => (l0 :: u.map (·.2)).contains n) ((l0 :: u.map (·.2)).contains g)
          ((Conn.and, l0) :: (u ++ (Conn.or, a) :: t)) = false := by
      intro t ht
      simp only [evalFrom, hg, Bool.false_and]
      rw [evalFrom_append_and _ _ _ _ hu, evalFrom_and _ _ _ hu]
      simp only [Bool.false_and, evalFrom, Bool.false_or, ha]
      exact evalFrom_false t ht
    cases r with
    | none =>
      simp only [moved, CondSeq.eval, CondSeq.join, CondSeq.atom, List.nil_append]
      exact hfin v hv
    | some r =>
      simp only [moved, CondSeq.eval, CondSeq.join, CondSeq.atom, List.nil_append, List.append_assoc,
        List.cons_append]
      apply hfin
      intro x hx
      rcases List.mem_append.1 hx with hx | hx
      · exact hv x hx
      · simp only [List.mem_cons] at hx
        rcases hx with rfl | hx
        · exact hd r.first (by simp [CondSeq.atoms])
        · refine hd x.2 ?_
          simp only [List.cons_append, List.mem_cons, List.mem_append, List.mem_map, Option.map_some,
            Option.getD_some, CondSeq.atoms]
          exact .inr (.inr (.inr (.inr ⟨x, hx, rfl⟩)))

/-! ### The connection with the texts -/

theorem render_join {α : Type} (f : α → Str) (q q' : CondSeq α) (c : Conn) :
    (q.join c q').render f = q.render f ++ c.text ++ q'.render f := by
  simp [CondSeq.render, CondSeq.join]

/-- **C30** in terms of the text: when the parts of the matched text are the texts of sequences of
conditions, the rewritten text is the text of the moved sequence. -/
theorem C30_text {α : Type} (f : α → Str) (l : CondSeq α) (g : α) (r : Option (CondSeq α)) :
    (moved l g r).render f = f g ++ cs!" AND " ++ l.render f ++
      (match r with | some r => cs!" AND " ++ r.render f | none => []) := by
  cases r with
  | none => simp [moved, CondSeq.atom, CondSeq.render, Conn.text, CondSeq.join]
  | some r => simp [moved, CondSeq.atom, CondSeq.render, Conn.text, CondSeq.join]

/-- **C30**, whole: what preprocessing returns for a `$`-free text whose parts are sequences of
conditions, and its value when nothing was in parentheses and the left part has no OR. -/
theorem C30_preprocess_partial {α : Type} (f : α → Str) {s t : Str} (h : preprocess s = .ok t)
    (hd : '$' ∉ s) (hm : Matching s) :
    ∃ P v L G R T L' G', s = P ++ v ∧ WhereForm v L G R T ∧ Stripped L G L' G' ∧
      ∀ (l : CondSeq α) (g : α) (r : Option (CondSeq α)), L' = l.render f → G' = f g →
        R = r.map (CondSeq.render f) →
        t = P ++ (cs!"WHERE " ++ (moved l g r).render f) ∧
        (l.noOr → ∀ ρ, (moved l g r).eval ρ = (written l g r).eval ρ) := by
  obtain ⟨P, v, L, G, R, T, L', G', hs, hw, hst, rfl⟩ := C29_tail_dropped h hm hd
  refine ⟨P, v, L, G, R, T, L', G', hs, hw, hst, ?_⟩
  rintro l g r rfl rfl rfl
  refine ⟨?_, fun hl ρ => C30_equivalent_partial ρ l g r hl⟩
  rw [C30_text]
  cases r <;> simp

/-- **C30**, a text for which the rewrite changes the meaning: `a=1 OR b=2 AND G` becomes
`G AND a=1 OR b=2`.  For a row with `a=1`, not `b=2` and outside the region the first holds and
the second does not. -/
theorem C30_witness :
    preprocess cs!"SELECT a FROM t WHERE a=1 OR b=2 AND CONTAINS(p,q)=1" =
      .ok cs!"SELECT a FROM t WHERE CONTAINS(p,q)=1 AND a=1 OR b=2" ∧
    ∃ ρ : Nat → Bool,
      (written ⟨0, [(.or, 1)]⟩ 2 none).eval ρ = true ∧ (moved ⟨0, [(.or, 1)]⟩ 2 none).eval ρ = false := by
  refine ⟨by kernel_rfl, C30_violated _ _ _ ?_ (by decide)⟩
  intro h
  have := h (.or, 1) (by simp)
  cases this

/-! ### C31 -/

/-- A part of the text contains the word, in any letter case. -/
def Contains (w s : Str) : Prop := ∃ u k z, s = u ++ (k ++ z) ∧ SameCI k w

/-- **C31** for texts in which nothing after the first `WHERE ` contains UNION, INTERSECT or EXCEPT:
none of the parts that are moved contains these words, so they belong to one SELECT. -/
theorem C31_no_union_partial {s t : Str} (h : preprocess s = .ok t) (hm : Matching s) (hd : '$' ∉ s)
    (ws : List Str) (hno : ∀ w ∈ ws, ∀ P v, s = P ++ v → (∃ k z, v = k ++ z ∧ SameCI k cs!"WHERE ") →
      ¬ Contains w v) :
    ∃ P v L G R T L' G', s = P ++ v ∧ WhereForm v L G R T ∧ Stripped L G L' G' ∧
      t = P ++ (cs!"WHERE " ++ G' ++ cs!" AND " ++ L' ++
          (match R with | some R => cs!" AND " ++ R | none => [])) ∧
      ∀ w ∈ ws, ¬ Contains w L ∧ ¬ Contains w G ∧ ¬ Contains w (R.getD []) := by
  obtain ⟨P, v, L, G, R, T, L', G', hs, hw, hst, ht⟩ := C29_tail_dropped h hm hd
  refine ⟨P, v, L, G, R, T, L', G', hs, hw, hst, ht, fun w hwm => ?_⟩
  have hv : ¬ Contains w v := by
    apply hno w hwm P v hs
    obtain ⟨k, b1, a, b2, X, rfl, hk, -⟩ := hw
    exact ⟨k, _, rfl, hk⟩
  have infix_ : ∀ x y z : Str, v = x ++ (y ++ z) → ¬ Contains w y := by
    rintro x y z rfl ⟨u, k, z', rfl, hk⟩
    exact hv ⟨x ++ u, k, z' ++ z, by simp, hk⟩
  obtain ⟨k, b1, a, b2, X, hveq, -, -, -, -, -, -, -, hX, -⟩ := hw
  refine ⟨infix_ k L _ hveq, infix_ (k ++ L ++ b1 ++ a ++ b2) G X (by rw [hveq]; simp), ?_⟩
  cases R with
  | none =>
    rintro ⟨u, k', z, h1, h2⟩
    have h3 : k' = [] := by
      simp only [Option.getD_none] at h1
      have := h1.symm
      simp at this
      exact this.2.1
    subst h3
    exact hv ⟨[], [], v, rfl, h2⟩
  | some R =>
    obtain ⟨b3, a', b4, rfl, -⟩ := hX
    exact infix_ (k ++ L ++ b1 ++ a ++ b2 ++ G ++ b3 ++ a' ++ b4) R T (by rw [hveq]; simp)

/-- the text of the witness -/
def unionText : Str :=
  cs!"SELECT a FROM t WHERE b=1 UNION SELECT a FROM u WHERE d=2 AND CONTAINS(POINT('ICRS',1,2),CIRCLE('ICRS',1,2,3))=1"

/-- **C31 is violated**: the geometry of the second SELECT ends up in the WHERE of the first. -/
theorem C31_violated : preprocess unionText =
    .ok cs!"SELECT a FROM t WHERE CONTAINS(POINT('ICRS',1,2),CIRCLE('ICRS',1,2,3))=1 AND b=1 UNION SELECT a FROM u WHERE d=2" := by
  kernel_rfl

end Adql
