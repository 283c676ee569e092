import Verif.Model.Exchange
import Verif.Model.Spell

/-!
# Trees with exchanged names are well made
-/

namespace Adql

open Spec

variable {x : Exchange} {nt : Bool} {M : Str → Prop} {r : Node}

/-- well made, and in the tree `r` -/
def MadeIn (nt : Bool) (M : Str → Prop) (r : Node) (n : Node) : Prop := Ranges M n ∧ NoGeometry n ∧ Regular nt n ∧ Sub n r

theorem strPrim_exch (p : Prim) : strPrim (p.exch x) = strPrim p := by
  cases p <;> simp only [Prim.exch, strPrim]

theorem strAtom_exch (p : NumPrim) : strAtom (p.exch x) = strAtom p := by
  rcases p with ⟨p, _ | ⟨i, l⟩⟩ | f
  · simp only [NumPrim.exch, VEP.exch, exchVEs, strAtom, strPrim_exch]
  · simp only [NumPrim.exch, VEP.exch, exchVEs, strAtom]
  · simp only [NumPrim.exch, strAtom]

theorem strFactor_exch (f : Factor) : strFactor (f.exch x) = strFactor f := by
  obtain ⟨s, p⟩ := f
  simp only [Factor.exch, strFactor, strAtom_exch]

theorem minusOK_exch : ∀ {b : Bool} {l : List Term}, minusOK b l → minusOK b (exchTerms x l)
  | _, [], _ => by simp only [exchTerms, minusOK]
  | b, .mk op (.mk s p) :: l, h => by
    simp only [exchTerms, Term.exch, Factor.exch, minusOK, strAtom_exch] at h ⊢
    exact ⟨h.1, minusOK_exch h.2⟩

mutual

theorem headSC_exch : ∀ c : SC, headSC (c.exch x) = headSC c
  | .factor b => by simp only [SC.exch, headSC, headBF_exch b]
  | .term b _ _ => by simp only [SC.exch, headSC, headBF_exch b]

theorem headBF_exch : ∀ b : BF, headBF (b.exch x) = headBF b
  | .mk [] p => by simp only [BF.exch, headBF, headBP_exch p]
  | .mk (_ :: _) p => by simp only [BF.exch, headBF]

theorem headBP_exch : ∀ p : BP, headBP (p.exch x) = headBP p
  | .pred p => by cases p <;> simp only [BP.exch, Pred.exch, headBP]
  | .sc c => by simp only [BP.exch, headBP, headSC_exch c]
  | .ve _ => by simp only [BP.exch, headBP]

end

mutual

theorem bareVE_exch : ∀ v : VE, bareVE (v.exch x) = bareVE v
  | .nb _ => by simp only [VE.exch, bareVE]
  | .sc c => by simp only [VE.exch, bareVE, bareSC_exch c]

theorem bareBF_exch : ∀ b : BF, bareBF (b.exch x) = bareBF b
  | .mk _ (.pred (.cmp _ _ w)) => by simp only [BF.exch, BP.exch, Pred.exch, bareBF, bareVE_exch w]
  | .mk _ (.pred (.between _ _ _ w)) => by simp only [BF.exch, BP.exch, Pred.exch, bareBF, bareVE_exch w]
  | .mk _ (.pred (.inSub _ _ _)) => by simp only [BF.exch, BP.exch, Pred.exch, bareBF]
  | .mk _ (.pred (.inList _ _ _)) => by simp only [BF.exch, BP.exch, Pred.exch, bareBF]
  | .mk _ (.pred (.null _ _)) => by simp only [BF.exch, BP.exch, Pred.exch, bareBF]
  | .mk _ (.pred (.like _ _ _)) => by simp only [BF.exch, BP.exch, Pred.exch, bareBF]
  | .mk _ (.pred (.exist _)) => by simp only [BF.exch, BP.exch, Pred.exch, bareBF]
  | .mk _ (.sc c) => by simp only [BF.exch, BP.exch, bareBF, headSC_exch c]
  | .mk _ (.ve _) => by simp only [BF.exch, BP.exch, bareBF]

theorem bareSC_exch : ∀ c : SC, bareSC (c.exch x) = bareSC c
  | .factor b => by simp only [SC.exch, bareSC, bareBF_exch b]
  | .term _ _ c => by simp only [SC.exch, bareSC, bareSC_exch c]

end

theorem isCond_exch (v : VE) : isCond (v.exch x) = isCond v := by cases v <;> simp only [VE.exch, isCond]

theorem condBF_exch : ∀ b : BF, condBF (b.exch x) = condBF b
  | .mk _ (.pred p) => by cases p <;> simp only [BF.exch, BP.exch, Pred.exch, condBF, isCond_exch]
  | .mk _ (.sc c) => by simp only [BF.exch, BP.exch, condBF]
  | .mk _ (.ve _) => by simp only [BF.exch, BP.exch, condBF]

theorem startsParen_exch : ∀ v : VENB, startsParen (v.exch x) = startsParen v
  | .mk (.mk [] (.vep (.mk p _))) _ => by cases p <;> simp only [VENB.exch, Factor.exch, NumPrim.exch, VEP.exch, Prim.exch, startsParen]
  | .mk (.mk [] (.nvf _)) _ => by simp only [VENB.exch, Factor.exch, NumPrim.exch, startsParen]
  | .mk (.mk (_ :: _) _) _ => by simp only [VENB.exch, Factor.exch, startsParen]

/-! ### Joins -/

theorem hasSpec_exch : ∀ s : JoinSuffix, hasSpec (s.exch x) = hasSpec s
  | .mk _ _ _ (.named []) => by simp only [JoinSuffix.exch, JoinSpec.exch, hasSpec]
  | .mk _ _ _ (.named (_ :: _)) => by simp only [JoinSuffix.exch, JoinSpec.exch, hasSpec]
  | .mk _ _ _ (.on _) => by simp only [JoinSuffix.exch, JoinSpec.exch, hasSpec]

theorem openJT_eq (h : QJHead) (ss : List JoinSuffix) : openJT (.qj (.mk h ss)) = match ss.getLast? with
    | some s => !hasSpec s
    | none => false := by
  simp only [openJT]
  cases ss.getLast? with
  | none => rfl
  | some s =>
    obtain ⟨n, ty, t, (_ | ⟨c, l⟩) | s⟩ := s <;> rfl

theorem openJT_exch : ∀ j : JT, openJT (j.exch x) = openJT j
  | .qj (.mk h ss) => by
    simp only [JT.exch, QJ.exch, openJT_eq, exchSuffixes_eq, List.getLast?_map]
    cases ss.getLast? with
    | none => rfl
    | some s => simp only [Option.map_some, hasSpec_exch]
  | .wrap _ => by simp only [JT.exch, openJT]

theorem openTR_exch (t : TR) : openTR (t.exch x) = openTR t := by
  cases t <;> simp only [TR.exch, openTR, openJT_exch]

theorem startsInner_exch : ∀ s : JoinSuffix, startsInner (s.exch x) = startsInner s
  | .mk false (.str (_ :: _)) _ _ => by simp only [JoinSuffix.exch, startsInner]
  | .mk false (.str []) _ _ => by simp only [JoinSuffix.exch, startsInner]
  | .mk true _ _ _ => by simp only [JoinSuffix.exch, startsInner]
  | .mk false (.outer _ _) _ _ => by simp only [JoinSuffix.exch, startsInner]

theorem bareSuffix_exch : ∀ s : JoinSuffix, bareSuffix (s.exch x) = bareSuffix s
  | .mk _ _ _ (.on c) => by simp only [JoinSuffix.exch, JoinSpec.exch, bareSuffix, bareSC_exch]
  | .mk _ _ _ (.named _) => by simp only [JoinSuffix.exch, JoinSpec.exch, bareSuffix]

theorem takesSuffix_exch : ∀ s : JoinSuffix, takesSuffix (s.exch x) = takesSuffix s
  | .mk _ _ t _ => by cases t <;> simp only [JoinSuffix.exch, TR.exch, takesSuffix, takesJoin]

theorem sufOK_exch : ∀ {s : JoinSuffix}, sufOK s → sufOK (s.exch x)
  | .mk n ty t sp, h => by
    have e := hasSpec_exch (x := x) (.mk n ty t sp)
    simp only [JoinSuffix.exch] at e
    simp only [JoinSuffix.exch, sufOK, e, openTR_exch]
    exact h

theorem sufsOK_exch : ∀ {l : List JoinSuffix}, sufsOK l → sufsOK (exchSuffixes x l)
  | [], _ => by simp only [exchSuffixes, sufsOK]
  | [a], h => by
    simp only [exchSuffixes, sufsOK] at h ⊢
    exact sufOK_exch h
  | a :: b :: l, h => by
    have ih := @sufsOK_exch (b :: l)
    simp only [exchSuffixes, sufsOK, hasSpec_exch, takesSuffix_exch, bareSuffix_exch, startsInner_exch] at h ih ⊢
    exact ⟨sufOK_exch h.1, h.2.1, h.2.2.1, ih h.2.2.2⟩

/-! ### First names -/

/-- The first name is the same, or that of a column below `n`. -/
def FirstAs (x : Exchange) (n : Node) (a b : Str) : Prop :=
  b = a ∨ ∃ c, Sub (.colRef c) n ∧ a = firstCol c ∧ b = firstCol (x.col c)

theorem FirstAs.up {n m : Node} {a b : Str} (h : FirstAs x m a b) (hc : Node.child n m) : FirstAs x n a b := by
  rcases h with h | ⟨c, h1, h2⟩
  · exact .inl h
  · exact .inr ⟨c, .step hc h1, h2⟩

theorem firstPrim_exch : ∀ p : Prim, FirstAs x (.prim p) (firstPrim p) (firstPrim (p.exch x))
  | .col c => .inr ⟨c, .step rfl (.refl _), rfl, by simp only [Prim.exch, firstPrim]⟩
  | .arr _ => .inl (by simp only [Prim.exch, firstPrim])
  | .str _ => .inl (by simp only [Prim.exch])
  | .countStar _ => .inl (by simp only [Prim.exch])
  | .setFn _ _ _ => .inl (by simp only [Prim.exch, firstPrim])
  | .case _ => .inl (by simp only [Prim.exch, firstPrim])
  | .any _ => .inl (by simp only [Prim.exch, firstPrim])
  | .sub _ => .inl (by simp only [Prim.exch, firstPrim])

theorem firstAtom_exch : ∀ p : NumPrim, FirstAs x (.numPrim p) (firstAtom p) (firstAtom (p.exch x))
  | .vep (.mk p l) => by
    simp only [NumPrim.exch, VEP.exch, firstAtom]
    exact ((firstPrim_exch p).up (n := .vep (.mk p l)) (.inl rfl)).up rfl
  | .nvf f => .inl (by cases f <;> simp only [NumPrim.exch, NumFn.exch, firstAtom, firstFn])

theorem firstExpr_exch : ∀ v : VENB, FirstAs x (.venb v) (firstExpr v) (firstExpr (v.exch x))
  | .mk (.mk [] p) ts => by
    simp only [VENB.exch, Factor.exch, firstExpr, firstFactor]
    exact ((firstAtom_exch p).up (n := .factor (.mk [] p)) rfl).up (.inl rfl)
  | .mk (.mk (_ :: _) p) ts => .inl (by simp only [VENB.exch, Factor.exch, firstExpr, firstFactor])

theorem firstArgs_exch : ∀ l : List VE, firstArgs (exchVEs x l) = firstArgs l ∨
    ∃ v, v ∈ l ∧ FirstAs x (.ve v) (firstArgs l) (firstArgs (exchVEs x l))
  | [] => .inl (by simp only [exchVEs])
  | .nb v :: l => .inr ⟨_, List.mem_cons_self .., by
      simp only [exchVEs, VE.exch, firstArgs, firstVal]
      exact (firstExpr_exch v).up rfl⟩
  | .sc v :: l => .inl (by simp only [exchVEs, VE.exch, firstArgs, firstVal])

theorem firstBP_exch : ∀ p : BP, FirstAs x (.bp p) (firstBP p) (firstBP (p.exch x))
  | .pred (.cmp v a b) => by
    simp only [BP.exch, Pred.exch, firstBP]
    exact ((firstExpr_exch v).up (n := .pred (.cmp v a b)) (.inl rfl)).up rfl
  | .pred (.between v a b d) => by
    simp only [BP.exch, Pred.exch, firstBP]
    exact ((firstExpr_exch v).up (n := .pred (.between v a b d)) (.inl rfl)).up rfl
  | .pred (.inList v a b) => by
    simp only [BP.exch, Pred.exch, firstBP]
    exact ((firstExpr_exch v).up (n := .pred (.inList v a b)) (.inl rfl)).up rfl
  | .pred (.inSub v a b) => by
    simp only [BP.exch, Pred.exch, firstBP]
    exact ((firstExpr_exch v).up (n := .pred (.inSub v a b)) (.inl rfl)).up rfl
  | .pred (.null v a) => by
    simp only [BP.exch, Pred.exch, firstBP]
    exact ((firstExpr_exch v).up (n := .pred (.null v a)) rfl).up rfl
  | .pred (.like v a b) => by
    simp only [BP.exch, Pred.exch, firstBP]
    exact ((firstExpr_exch v).up (n := .pred (.like v a b)) (.inl rfl)).up rfl
  | .pred (.exist _) => .inl (by simp only [BP.exch, Pred.exch, firstBP])
  | .sc _ => .inl (by simp only [BP.exch, firstBP])
  | .ve v => by
    simp only [BP.exch, firstBP]
    exact (firstExpr_exch v).up rfl

theorem FirstAs.prefix (hx : Keeps nt M r x) {n : Node} (hn : All (MadeIn nt M r) n) {a b : Str} (h : FirstAs x n a b) {w : Str}
    (hw : w ∈ [cs!"NOT", cs!"EXISTS", cs!"WITH", cs!"SELECT"]) (ha : prefixCI w a = false) : prefixCI w b = false := by
  rcases h with rfl | ⟨c, h1, rfl, rfl⟩
  · exact ha
  · exact (hx.col c (hn _ h1).2.2.2).2 w hw ha

/-! ### Nodes -/

set_option linter.unusedSimpArgs false

theorem map_ne_nil {α β : Type} {f : α → β} {l : List α} (h : l ≠ []) : l.map f ≠ [] := fun e => h (List.map_eq_nil_iff.1 e)

theorem geom_dflt_exch {g : Geom} (h : g = Geom.dflt) : g.exch x = Geom.dflt := by rw [h, Geom.exch_dflt]

theorem noGeomSFW_exch : ∀ {s : SFW}, NoGeomSFW s → NoGeomSFW (s.exch x)
  | .mk _ _ (.mk g _), h => by
    simp only [SFW.exch, Where.exch, NoGeomSFW] at h ⊢
    exact geom_dflt_exch h

theorem noGeometry_exch : ∀ {n : Node}, NoGeometry n → NoGeometry (n.exch x)
  | .subq (.qs (.mk _ (.mk i as) _ _ _)), h => by
    simp only [Node.exch, Subquery.exch, QuerySpec.exch, SFWList.exch, NoGeometry, exchAddons_eq, List.mem_map] at h ⊢
    refine ⟨noGeomSFW_exch h.1, ?_⟩
    rintro op s ⟨⟨op', s'⟩, ha, e⟩
    simp only [Addon.exch, Addon.mk.injEq] at e
    obtain ⟨rfl, rfl⟩ := e
    exact noGeomSFW_exch (h.2 _ _ ha)
  | .subq (.jt j), _ => by simp only [Node.exch, Subquery.exch, NoGeometry]
  | .ve _, _ | .venb _, _ | .term _, _ | .factor _, _ | .numPrim _, _ | .numFn _, _ | .vep _, _ | .prim _, _ | .caseE _, _
  | .simpleWhen _, _ | .searchedWhen _, _ | .result _, _ | .sc _, _ | .bf _, _ | .bp _, _ | .pred _, _ | .jt _, _
  | .qj _, _ | .head _, _ | .suffix _, _ | .spec _, _ | .tr _, _ | .gpred _, _ | .geom _, _ | .where_ _, _ | .item _, _
  | .columns _, _ | .select _, _ | .sfw _, _ | .addon _, _ | .sfwList _, _ | .group _, _ | .with_ _, _ | .query _, _
  | .sort _, _ | .tcorr _, _ | .colRef _, _ | .coordExpr _, _ | .coord _, _ | .point _, _ | .shape _, _ | .pointOrCol _, _
  | .shapeOrCol _, _ => by simp only [Node.exch, NoGeometry]

theorem tcorr_exch (hx : Keeps nt M r x) {t : TableCorr} (h : MadeIn nt M r (.tcorr t)) : WellMade nt M (.tcorr (t.exch x)) := by
  unfold TableCorr.exch
  split
  · exact ⟨h.1, h.2.1, h.2.2.1⟩
  · exact (hx.tab t h.2.2.2).1

theorem ranges_exch (hx : Keeps nt M r x) : ∀ {n : Node}, MadeIn nt M r n → Ranges M (n.exch x)
  | .tcorr t, h => (tcorr_exch hx h).1
  | .colRef c, h => (hx.col c h.2.2.2).1.1
  | .item (.nonAsStr s), h => by simpa only [Node.exch, Item.exch] using (hx.star s h.2.2.2).1
  | .item (.as _ _), h => by
    have h := h.1
    simp only [Node.exch, Item.exch]
    exact h
  | .item (.nonAsVE _), h => by simp only [Node.exch, Item.exch, Ranges]
  | .term (.mk _ _), h => by
    have h := h.1
    simp only [Node.exch, Term.exch]
    exact h
  | .factor (.mk _ _), h => by
    have h := h.1
    simp only [Node.exch, Factor.exch]
    exact h
  | .numFn f, h => by
    have h := h.1
    cases f <;> simp only [Node.exch, NumFn.exch] <;> exact h
  | .prim p, h => by
    have h := h.1
    cases p <;> simp only [Node.exch, Prim.exch, exchVEs_eq, Ranges] at h ⊢ <;> first | exact h | exact map_ne_nil h
  | .caseE c, h => by
    have h := h.1
    cases c <;> simp only [Node.exch, CaseE.exch, exchVEs_eq, exchWhens_eq, exchConds_eq, Ranges] at h ⊢ <;> first | exact h | exact map_ne_nil h
  | .result r, h => by
    have h := h.1
    cases r <;> simp only [Node.exch, CaseResult.exch] <;> exact h
  | .sc c, h => by
    have h := h.1
    cases c <;> simp only [Node.exch, SC.exch] <;> exact h
  | .bf (.mk _ _), h => by
    have h := h.1
    simp only [Node.exch, BF.exch]
    exact h
  | .pred p, h => by
    have h := h.1
    cases p <;> simp only [Node.exch, Pred.exch, exchVEs_eq, Ranges] at h ⊢ <;> first | exact h | exact ⟨h.1, map_ne_nil h.2⟩
  | .qj (.mk _ _), h => by
    have h := h.1
    simp only [Node.exch, QJ.exch, exchSuffixes_eq, Ranges] at h ⊢
    exact map_ne_nil h
  | .suffix (.mk _ _ _ _), h => by
    have h := h.1
    simp only [Node.exch, JoinSuffix.exch]
    exact h
  | .spec s, h => by
    have h := h.1
    cases s <;> simp only [Node.exch, JoinSpec.exch] <;> exact h
  | .tr t, h => by
    have h := h.1
    cases t <;> simp only [Node.exch, TR.exch] <;> exact h
  | .geom g, h => by
    have h := h.1
    cases g <;> simp only [Node.exch, Geom.exch] <;> exact h
  | .columns c, h => by
    have h := h.1
    cases c <;> simp only [Node.exch, Columns.exch, exchItems_eq, Ranges] at h ⊢ <;> first | exact h | exact map_ne_nil h
  | .select (.mk _ _ _), h => by
    have h := h.1
    simp only [Node.exch, Select.exch]
    exact h
  | .sfw (.mk _ _ _), h => by
    have h := h.1
    simp only [Node.exch, SFW.exch, exchTRs_eq, Ranges] at h ⊢
    exact map_ne_nil h
  | .addon (.mk _ _), h => by
    have h := h.1
    simp only [Node.exch, Addon.exch]
    exact h
  | .with_ (.mk _ _ _), h => by
    have h := h.1
    simp only [Node.exch, With.exch]
    exact h
  | .sort ⟨.inl _, _⟩, h => h.1
  | .sort ⟨.inr _, _⟩, h => ⟨h.1.1, nofun⟩
  | .coordExpr e, h => by
    have h := h.1
    cases e <;> simp only [Node.exch, CoordExpr.exch] <;> exact h
  | .shape s, h => by
    have h := h.1
    cases s <;> simp only [Node.exch, Shape.exch, Ranges] at h ⊢ <;> first | exact h | exact map_ne_nil h
  | .ve _, _ | .venb _, _ | .numPrim _, _ | .vep _, _ | .simpleWhen _, _ | .searchedWhen _, _ | .bp _, _ | .subq _, _ | .jt _, _
  | .head _, _ | .gpred _, _ | .where_ _, _ | .sfwList _, _ | .group _, _ | .query _, _ | .coord _, _ | .point _, _
  | .pointOrCol _, _ | .shapeOrCol _, _ => by simp only [Node.exch, Ranges]

theorem regular_exch (hx : Keeps nt M r x) : ∀ {n : Node}, All (MadeIn nt M r) n → Regular nt (n.exch x)
  | .tcorr t, h => (tcorr_exch hx (h _ (.refl _))).2.2
  | .colRef c, h => (hx.col c (h _ (.refl _)).2.2.2).1.2.2
  | .item (.nonAsStr s), h => by simpa only [Node.exch, Item.exch] using (hx.star s (h _ (.refl _)).2.2.2).2.2
  | .item (.as _ _), h => by
    have h' := (h _ (.refl _)).2.2.1
    simp only [Node.exch, Item.exch]
    exact h'
  | .item (.nonAsVE _), _ => by simp only [Node.exch, Item.exch, Regular]
  | .bf (.mk [] p), h => by
    have h' := (h _ (.refl _)).2.2.1
    simp only [Node.exch, BF.exch, Regular] at h' ⊢
    exact fun hn => (firstBP_exch p).prefix hx (h.sub rfl) (by simp) (h' hn)
  | .bf (.mk (_ :: _) p), h => by simp only [Node.exch, BF.exch, Regular]
  | .ve (.sc c), h => by
    have h' := (h _ (.refl _)).2.2.1
    simp only [Node.exch, VE.exch, Regular, headSC_exch] at h' ⊢
    exact h'
  | .ve (.nb _), h => by simp only [Node.exch, VE.exch, Regular]
  | .sc (.term _ _ _), h => by
    have h' := (h _ (.refl _)).2.2.1
    simp only [Node.exch, SC.exch, Regular, condBF_exch] at h' ⊢
    exact h'
  | .sc (.factor _), h => by simp only [Node.exch, SC.exch, Regular]
  | .pred (.between _ _ (.sc _) _), h => ((h _ (.refl _)).2.2.1).elim
  | .pred (.between _ _ (.nb _) _), h => by simp only [Node.exch, Pred.exch, VE.exch, Regular]
  | .pred (.like _ _ (.sc _)), h => ((h _ (.refl _)).2.2.1).elim
  | .pred (.like _ _ (.nb _)), h => by simp only [Node.exch, Pred.exch, VE.exch, Regular]
  | .pred (.inList v n l), h => by
    have h' := (h _ (.refl _)).2.2.1
    simp only [Node.exch, Pred.exch, Regular] at h' ⊢
    rcases firstArgs_exch (x := x) l with e | ⟨v, hv, e⟩
    · rw [e]; exact h'
    · have hs := h.sub (m := .ve v) (.inr ⟨v, hv, rfl⟩)
      exact ⟨e.prefix hx hs (by simp) h'.1, e.prefix hx hs (by simp) h'.2⟩
  | .pred (.cmp _ _ _), h => by simp only [Node.exch, Pred.exch, Regular]
  | .pred (.inSub _ _ _), h => by simp only [Node.exch, Pred.exch, Regular]
  | .pred (.null _ _), h => by simp only [Node.exch, Pred.exch, Regular]
  | .pred (.exist _), h => by simp only [Node.exch, Pred.exch, Regular]
  | .venb (.mk f ts), h => by
    have h' := (h _ (.refl _)).2.2.1
    simp only [Node.exch, VENB.exch, Regular, strFactor_exch] at h' ⊢
    exact minusOK_exch h'
  | .numFn f, h => by
    have h' := (h _ (.refl _)).2.2.1
    cases f <;> simp only [Node.exch, NumFn.exch] <;> exact h'
  | .result r, h => by
    have h' := (h _ (.refl _)).2.2.1
    cases r <;> simp only [Node.exch, CaseResult.exch] <;> exact h'
  | .bp (.ve v), h => by
    have h' := (h _ (.refl _)).2.2.1
    simp only [Node.exch, BP.exch, Regular, startsParen_exch] at h' ⊢
    exact ⟨h'.1, (firstExpr_exch v).prefix hx (h.sub rfl) (by simp) h'.2⟩
  | .bp (.pred _), h => by simp only [Node.exch, BP.exch, Regular]
  | .bp (.sc _), h => by simp only [Node.exch, BP.exch, Regular]
  | .subq (.jt (.qj (.mk (.tc t) ss))), h => by
    have h' := (h _ (.refl _)).2.2.1
    simp only [Node.exch, Subquery.exch, JT.exch, QJ.exch, QJHead.exch, Regular, firstJT] at h' ⊢
    have ht : Sub (.tcorr t) r := (h _ (.step rfl (.step rfl (.step (.inl rfl) (.step rfl (.refl _)))))).2.2.2
    unfold TableCorr.exch
    split
    · exact h'
    · exact ⟨(hx.tab t ht).2 _ (by simp) h'.1, (hx.tab t ht).2 _ (by simp) h'.2⟩
  | .subq (.jt (.qj (.mk (.jt _) ss))), h => by
    simp only [Node.exch, Subquery.exch, JT.exch, QJ.exch, QJHead.exch, Regular, firstJT]
    exact ⟨rfl, rfl⟩
  | .subq (.jt (.wrap _)), h => by
    simp only [Node.exch, Subquery.exch, JT.exch, Regular, firstJT]
    exact ⟨rfl, rfl⟩
  | .subq (.qs _), h => by simp only [Node.exch, Subquery.exch, Regular]
  | .qj (.mk hd ss), h => by
    have h' := (h _ (.refl _)).2.2.1
    simp only [Node.exch, QJ.exch, Regular] at h' ⊢
    refine ⟨fun q e => ?_, sufsOK_exch h'.2⟩
    obtain t | q' | j := hd
    · simp only [QJHead.exch] at e; cases e
    · exact h'.1 _ rfl
    · simp only [QJHead.exch, JT.exch] at e; cases e
  | .spec s, h => by
    have h' := (h _ (.refl _)).2.2.1
    cases s <;> simp only [Node.exch, JoinSpec.exch] <;> exact h'
  | .tr (.derived (.qs _) _), h => by
    have h' := (h _ (.refl _)).2.2.1
    simp only [Node.exch, TR.exch, Subquery.exch]
    exact h'
  | .tr (.derived (.jt _) _), h => ((h _ (.refl _)).2.2.1).elim
  | .tr (.tvf _ _), h => by
    have h' := (h _ (.refl _)).2.2.1
    simp only [Node.exch, TR.exch]
    exact h'
  | .tr (.tc _), h => by simp only [Node.exch, TR.exch, Regular]
  | .tr (.jt _), h => by simp only [Node.exch, TR.exch, Regular]
  | .group (.col _), h => ((h _ (.refl _)).2.2.1).elim
  | .group (.ve _), h => by simp only [Node.exch, GroupTerm.exch, Regular]
  | .with_ (.mk _ _ _), h => by
    have h' := (h _ (.refl _)).2.2.1
    simp only [Node.exch, With.exch]
    exact h'
  | .coordExpr e, h => by
    have h' := (h _ (.refl _)).2.2.1
    cases e <;> simp only [Node.exch, CoordExpr.exch] <;> exact h'
  | .term _, _ | .factor _, _ | .numPrim _, _ | .vep _, _ | .prim _, _ | .caseE _, _ | .simpleWhen _, _ | .searchedWhen _, _ | .jt _, _
  | .head _, _ | .suffix _, _ | .gpred _, _ | .geom _, _ | .where_ _, _ | .columns _, _ | .select _, _ | .sfw _, _ | .addon _, _
  | .sfwList _, _ | .query _, _ | .sort _, _ | .coord _, _ | .point _, _ | .shape _, _ | .pointOrCol _, _
  | .shapeOrCol _, _ => by simp only [Node.exch, Regular]

/-- Well-made trees stay well made. -/
theorem wellMade_exch {n : Node} (hx : Keeps nt M n x) (h : All (WellMade nt M) n) : All (WellMade nt M) (n.exch x) := by
  refine exch_all (K := MadeIn nt M n) (fun _ h => ⟨ranges_exch hx (h _ (.refl _)), noGeometry_exch (h _ (.refl _)).2.1, regular_exch hx h⟩) ?_
  exact fun m hm => ⟨(h m hm).1, (h m hm).2.1, (h m hm).2.2, hm⟩

end Adql
