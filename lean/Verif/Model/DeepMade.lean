import Verif.Model.Deep

/-!
# Trees with changed SELECTs are well made
-/

namespace Adql

open Spec

variable {f : SFW → SFW} {nt : Bool} {M : Str → Prop}

theorem strPrim_deep (p : Prim) : strPrim (p.deep f) = strPrim p := by
  cases p <;> simp only [Prim.deep, strPrim]

theorem strAtom_deep (p : NumPrim) : strAtom (p.deep f) = strAtom p := by
  rcases p with ⟨p, _ | ⟨i, l⟩⟩ | y
  · simp only [NumPrim.deep, VEP.deep, deepVEs, strAtom, strPrim_deep]
  · simp only [NumPrim.deep, VEP.deep, deepVEs, strAtom]
  · simp only [NumPrim.deep, strAtom]

theorem strFactor_deep (y : Factor) : strFactor (y.deep f) = strFactor y := by
  obtain ⟨s, p⟩ := y
  simp only [Factor.deep, strFactor, strAtom_deep]

theorem minusOK_deep : ∀ {b : Bool} {l : List Term}, minusOK b l → minusOK b (deepTerms f l)
  | _, [], _ => by simp only [deepTerms, minusOK]
  | b, .mk op (.mk s p) :: l, h => by
    simp only [deepTerms, Term.deep, Factor.deep, minusOK, strAtom_deep] at h ⊢
    exact ⟨h.1, minusOK_deep h.2⟩

mutual

theorem headSC_deep : ∀ c : SC, headSC (c.deep f) = headSC c
  | .factor b => by simp only [SC.deep, headSC, headBF_deep b]
  | .term b _ _ => by simp only [SC.deep, headSC, headBF_deep b]

theorem headBF_deep : ∀ b : BF, headBF (b.deep f) = headBF b
  | .mk [] p => by simp only [BF.deep, headBF, headBP_deep p]
  | .mk (_ :: _) p => by simp only [BF.deep, headBF]

theorem headBP_deep : ∀ p : BP, headBP (p.deep f) = headBP p
  | .pred p => by cases p <;> simp only [BP.deep, Pred.deep, headBP]
  | .sc c => by simp only [BP.deep, headBP, headSC_deep c]
  | .ve _ => by simp only [BP.deep, headBP]

end

mutual

theorem bareVE_deep : ∀ v : VE, bareVE (v.deep f) = bareVE v
  | .nb _ => by simp only [VE.deep, bareVE]
  | .sc c => by simp only [VE.deep, bareVE, bareSC_deep c]

theorem bareBF_deep : ∀ b : BF, bareBF (b.deep f) = bareBF b
  | .mk _ (.pred (.cmp _ _ w)) => by simp only [BF.deep, BP.deep, Pred.deep, bareBF, bareVE_deep w]
  | .mk _ (.pred (.between _ _ _ w)) => by simp only [BF.deep, BP.deep, Pred.deep, bareBF, bareVE_deep w]
  | .mk _ (.pred (.inSub _ _ _)) => by simp only [BF.deep, BP.deep, Pred.deep, bareBF]
  | .mk _ (.pred (.inList _ _ _)) => by simp only [BF.deep, BP.deep, Pred.deep, bareBF]
  | .mk _ (.pred (.null _ _)) => by simp only [BF.deep, BP.deep, Pred.deep, bareBF]
  | .mk _ (.pred (.like _ _ _)) => by simp only [BF.deep, BP.deep, Pred.deep, bareBF]
  | .mk _ (.pred (.exist _)) => by simp only [BF.deep, BP.deep, Pred.deep, bareBF]
  | .mk _ (.sc c) => by simp only [BF.deep, BP.deep, bareBF, headSC_deep c]
  | .mk _ (.ve _) => by simp only [BF.deep, BP.deep, bareBF]

theorem bareSC_deep : ∀ c : SC, bareSC (c.deep f) = bareSC c
  | .factor b => by simp only [SC.deep, bareSC, bareBF_deep b]
  | .term _ _ c => by simp only [SC.deep, bareSC, bareSC_deep c]

end

theorem isCond_deep (v : VE) : isCond (v.deep f) = isCond v := by cases v <;> simp only [VE.deep, isCond]

theorem condBF_deep : ∀ b : BF, condBF (b.deep f) = condBF b
  | .mk _ (.pred p) => by cases p <;> simp only [BF.deep, BP.deep, Pred.deep, condBF, isCond_deep]
  | .mk _ (.sc c) => by simp only [BF.deep, BP.deep, condBF]
  | .mk _ (.ve _) => by simp only [BF.deep, BP.deep, condBF]

theorem startsParen_deep : ∀ v : VENB, startsParen (v.deep f) = startsParen v
  | .mk (.mk [] (.vep (.mk p _))) _ => by cases p <;> simp only [VENB.deep, Factor.deep, NumPrim.deep, VEP.deep, Prim.deep, startsParen]
  | .mk (.mk [] (.nvf _)) _ => by simp only [VENB.deep, Factor.deep, NumPrim.deep, startsParen]
  | .mk (.mk (_ :: _) _) _ => by simp only [VENB.deep, Factor.deep, startsParen]

/-! ### Joins -/

theorem hasSpec_deep : ∀ s : JoinSuffix, hasSpec (s.deep f) = hasSpec s
  | .mk _ _ _ (.named []) => by simp only [JoinSuffix.deep, JoinSpec.deep, hasSpec]
  | .mk _ _ _ (.named (_ :: _)) => by simp only [JoinSuffix.deep, JoinSpec.deep, hasSpec]
  | .mk _ _ _ (.on _) => by simp only [JoinSuffix.deep, JoinSpec.deep, hasSpec]

theorem openJT_last (h : QJHead) (ss : List JoinSuffix) : openJT (.qj (.mk h ss)) = match ss.getLast? with
    | some s => !hasSpec s
    | none => false := by
  simp only [openJT]
  cases ss.getLast? with
  | none => rfl
  | some s =>
    obtain ⟨n, ty, t, (_ | ⟨c, l⟩) | s⟩ := s <;> rfl

theorem openJT_deep : ∀ j : JT, openJT (j.deep f) = openJT j
  | .qj (.mk h ss) => by
    simp only [JT.deep, QJ.deep, openJT_last, deepSuffixes_eq, List.getLast?_map]
    cases ss.getLast? with
    | none => rfl
    | some s => simp only [Option.map_some, hasSpec_deep]
  | .wrap _ => by simp only [JT.deep, openJT]

theorem openTR_deep (t : TR) : openTR (t.deep f) = openTR t := by
  cases t <;> simp only [TR.deep, openTR, openJT_deep]

theorem startsInner_deep : ∀ s : JoinSuffix, startsInner (s.deep f) = startsInner s
  | .mk false (.str (_ :: _)) _ _ => by simp only [JoinSuffix.deep, startsInner]
  | .mk false (.str []) _ _ => by simp only [JoinSuffix.deep, startsInner]
  | .mk true _ _ _ => by simp only [JoinSuffix.deep, startsInner]
  | .mk false (.outer _ _) _ _ => by simp only [JoinSuffix.deep, startsInner]

theorem bareSuffix_deep : ∀ s : JoinSuffix, bareSuffix (s.deep f) = bareSuffix s
  | .mk _ _ _ (.on c) => by simp only [JoinSuffix.deep, JoinSpec.deep, bareSuffix, bareSC_deep]
  | .mk _ _ _ (.named _) => by simp only [JoinSuffix.deep, JoinSpec.deep, bareSuffix]

theorem takesSuffix_deep : ∀ s : JoinSuffix, takesSuffix (s.deep f) = takesSuffix s
  | .mk _ _ t _ => by cases t <;> simp only [JoinSuffix.deep, TR.deep, takesSuffix, takesJoin]

theorem sufOK_deep : ∀ {s : JoinSuffix}, sufOK s → sufOK (s.deep f)
  | .mk n ty t sp, h => by
    have e := hasSpec_deep (f := f) (.mk n ty t sp)
    simp only [JoinSuffix.deep] at e
    simp only [JoinSuffix.deep, sufOK, e, openTR_deep]
    exact h

theorem sufsOK_deep : ∀ {l : List JoinSuffix}, sufsOK l → sufsOK (deepSuffixes f l)
  | [], _ => by simp only [deepSuffixes, sufsOK]
  | [a], h => by
    simp only [deepSuffixes, sufsOK] at h ⊢
    exact sufOK_deep h
  | a :: b :: l, h => by
    have ih := @sufsOK_deep (b :: l)
    simp only [deepSuffixes, sufsOK, hasSpec_deep, takesSuffix_deep, bareSuffix_deep, startsInner_deep] at h ih ⊢
    exact ⟨sufOK_deep h.1, h.2.1, h.2.2.1, ih h.2.2.2⟩

/-! ### First names -/

theorem firstPrim_deep : ∀ p : Prim, firstPrim (p.deep f) = firstPrim p
  | .col c => by simp only [Prim.deep]
  | .arr _ => by simp only [Prim.deep, firstPrim]
  | .str _ => by simp only [Prim.deep]
  | .countStar _ => by simp only [Prim.deep]
  | .setFn _ _ _ => by simp only [Prim.deep, firstPrim]
  | .case _ => by simp only [Prim.deep, firstPrim]
  | .any _ => by simp only [Prim.deep, firstPrim]
  | .sub _ => by simp only [Prim.deep, firstPrim]

theorem firstAtom_deep : ∀ p : NumPrim, firstAtom (p.deep f) = firstAtom p
  | .vep (.mk p l) => by simp only [NumPrim.deep, VEP.deep, firstAtom, firstPrim_deep]
  | .nvf y => by cases y <;> simp only [NumPrim.deep, NumFn.deep, firstAtom, firstFn]

theorem firstExpr_deep : ∀ v : VENB, firstExpr (v.deep f) = firstExpr v
  | .mk (.mk [] p) ts => by simp only [VENB.deep, Factor.deep, firstExpr, firstFactor, firstAtom_deep]
  | .mk (.mk (_ :: _) p) ts => by simp only [VENB.deep, Factor.deep, firstExpr, firstFactor]

theorem firstArgs_deep : ∀ l : List VE, firstArgs (deepVEs f l) = firstArgs l
  | [] => by simp only [deepVEs]
  | .nb v :: l => by simp only [deepVEs, VE.deep, firstArgs, firstVal, firstExpr_deep]
  | .sc v :: l => by simp only [deepVEs, VE.deep, firstArgs, firstVal]

theorem firstBP_deep : ∀ p : BP, firstBP (p.deep f) = firstBP p
  | .pred p => by cases p <;> simp only [BP.deep, Pred.deep, firstBP, firstExpr_deep]
  | .sc _ => by simp only [BP.deep, firstBP]
  | .ve v => by simp only [BP.deep, firstBP, firstExpr_deep]

theorem firstJT_deep : ∀ j : JT, firstJT (j.deep f) = firstJT j
  | .qj (.mk (.tc t) ss) => by simp only [JT.deep, QJ.deep, QJHead.deep, firstJT]
  | .qj (.mk (.jt t) ss) => by simp only [JT.deep, QJ.deep, QJHead.deep, firstJT]
  | .wrap _ => by simp only [JT.deep, firstJT]

/-! ### Nodes -/

set_option linter.unusedSimpArgs false

theorem map_ne {α β : Type} {g : α → β} {l : List α} (h : l ≠ []) : l.map g ≠ [] := fun e => h (List.map_eq_nil_iff.1 e)

theorem geom_dflt_deep {g : Geom} (h : g = Geom.dflt) : g.deep f = Geom.dflt := by rw [h, Geom.deep_dflt]

theorem noGeomSFW_deep (hg : ∀ s, NoGeomSFW s → NoGeomSFW (f s)) : ∀ {s : SFW}, NoGeomSFW s → NoGeomSFW (s.deep f)
  | .mk _ _ (.mk g _), h => by
    rw [SFW.deep_eq]
    refine hg _ ?_
    simp only [SFW.inner, Where.deep, NoGeomSFW] at h ⊢
    exact geom_dflt_deep h

theorem noGeometry_deep (hg : ∀ s, NoGeomSFW s → NoGeomSFW (f s)) : ∀ {n : Node}, NoGeometry n → NoGeometry (n.inner f)
  | .subq (.qs (.mk _ (.mk i as) _ _ _)), h => by
    simp only [Node.inner, Node.deep, Subquery.deep, QuerySpec.deep, SFWList.deep, NoGeometry, deepAddons_eq, List.mem_map] at h ⊢
    refine ⟨noGeomSFW_deep hg h.1, ?_⟩
    rintro op s ⟨⟨op', s'⟩, ha, e⟩
    simp only [Addon.deep, Addon.mk.injEq] at e
    obtain ⟨rfl, rfl⟩ := e
    exact noGeomSFW_deep hg (h.2 _ _ ha)
  | .subq (.jt j), _ => by simp only [Node.inner, Node.deep, Subquery.deep, NoGeometry]
  | .ve _, _ | .venb _, _ | .term _, _ | .factor _, _ | .numPrim _, _ | .numFn _, _ | .vep _, _ | .prim _, _ | .caseE _, _
  | .simpleWhen _, _ | .searchedWhen _, _ | .result _, _ | .sc _, _ | .bf _, _ | .bp _, _ | .pred _, _ | .jt _, _
  | .qj _, _ | .head _, _ | .suffix _, _ | .spec _, _ | .tr _, _ | .gpred _, _ | .geom _, _ | .where_ _, _ | .item _, _
  | .columns _, _ | .select _, _ | .sfw _, _ | .addon _, _ | .sfwList _, _ | .group _, _ | .with_ _, _ | .query _, _
  | .sort _, _ | .tcorr _, _ | .colRef _, _ | .coordExpr _, _ | .coord _, _ | .point _, _ | .shape _, _ | .pointOrCol _, _
  | .shapeOrCol _, _ => by simp only [Node.inner, Node.deep, NoGeometry]

theorem ranges_deep : ∀ {n : Node}, Ranges M n → Ranges M (n.inner f)
  | .tcorr _, h => h
  | .colRef _, h => h
  | .item (.nonAsStr _), h => by
    simp only [Node.inner, Node.deep, Item.deep]
    exact h
  | .item (.as _ _), h => by
    simp only [Node.inner, Node.deep, Item.deep]
    exact h
  | .item (.nonAsVE _), h => by simp only [Node.inner, Node.deep, Item.deep, Ranges]
  | .term (.mk _ _), h => by
    simp only [Node.inner, Node.deep, Term.deep]
    exact h
  | .factor (.mk _ _), h => by
    simp only [Node.inner, Node.deep, Factor.deep]
    exact h
  | .numFn y, h => by
    cases y <;> simp only [Node.inner, Node.deep, NumFn.deep] <;> exact h
  | .prim p, h => by
    cases p <;> simp only [Node.inner, Node.deep, Prim.deep, deepVEs_eq, Ranges] at h ⊢ <;> first | exact h | exact map_ne h
  | .caseE c, h => by
    cases c <;> simp only [Node.inner, Node.deep, CaseE.deep, deepVEs_eq, deepWhens_eq, deepConds_eq, Ranges] at h ⊢ <;> first | exact h | exact map_ne h
  | .result r, h => by
    cases r <;> simp only [Node.inner, Node.deep, CaseResult.deep] <;> exact h
  | .sc c, h => by
    cases c <;> simp only [Node.inner, Node.deep, SC.deep] <;> exact h
  | .bf (.mk _ _), h => by
    simp only [Node.inner, Node.deep, BF.deep]
    exact h
  | .pred p, h => by
    cases p <;> simp only [Node.inner, Node.deep, Pred.deep, deepVEs_eq, Ranges] at h ⊢ <;> first | exact h | exact ⟨h.1, map_ne h.2⟩
  | .qj (.mk _ _), h => by
    simp only [Node.inner, Node.deep, QJ.deep, deepSuffixes_eq, Ranges] at h ⊢
    exact map_ne h
  | .suffix (.mk _ _ _ _), h => by
    simp only [Node.inner, Node.deep, JoinSuffix.deep]
    exact h
  | .spec s, h => by
    cases s <;> simp only [Node.inner, Node.deep, JoinSpec.deep] <;> exact h
  | .tr t, h => by
    cases t <;> simp only [Node.inner, Node.deep, TR.deep] <;> exact h
  | .geom g, h => by
    cases g <;> simp only [Node.inner, Node.deep, Geom.deep] <;> exact h
  | .columns c, h => by
    cases c <;> simp only [Node.inner, Node.deep, Columns.deep, deepItems_eq, Ranges] at h ⊢ <;> first | exact h | exact map_ne h
  | .select (.mk _ _ _), h => by
    simp only [Node.inner, Node.deep, Select.deep]
    exact h
  | .sfw (.mk _ _ _), h => by
    simp only [Node.inner, SFW.inner, deepTRs_eq, Ranges] at h ⊢
    exact map_ne h
  | .addon (.mk _ _), h => by
    simp only [Node.inner, Node.deep, Addon.deep]
    exact h
  | .with_ (.mk _ _ _), h => by
    simp only [Node.inner, Node.deep, With.deep]
    exact h
  | .sort _, h => h
  | .coordExpr _, h => h
  | .shape _, h => h
  | .ve _, _ | .venb _, _ | .numPrim _, _ | .vep _, _ | .simpleWhen _, _ | .searchedWhen _, _ | .bp _, _ | .subq _, _ | .jt _, _
  | .head _, _ | .gpred _, _ | .where_ _, _ | .sfwList _, _ | .group _, _ | .query _, _ | .coord _, _ | .point _, _
  | .pointOrCol _, _ | .shapeOrCol _, _ => by simp only [Node.inner, Node.deep, Ranges]

theorem regular_deep : ∀ {n : Node}, Regular nt n → Regular nt (n.inner f)
  | .tcorr _, h => h
  | .colRef _, h => h
  | .item (.nonAsStr _), h => by
    simp only [Node.inner, Node.deep, Item.deep]
    exact h
  | .item (.as _ _), h => by
    simp only [Node.inner, Node.deep, Item.deep]
    exact h
  | .item (.nonAsVE _), _ => by simp only [Node.inner, Node.deep, Item.deep, Regular]
  | .bf (.mk [] p), h => by
    simp only [Node.inner, Node.deep, BF.deep, Regular, firstBP_deep] at h ⊢
    exact h
  | .bf (.mk (_ :: _) p), h => by simp only [Node.inner, Node.deep, BF.deep, Regular]
  | .ve (.sc c), h => by
    simp only [Node.inner, Node.deep, VE.deep, Regular, headSC_deep] at h ⊢
    exact h
  | .ve (.nb _), h => by simp only [Node.inner, Node.deep, VE.deep, Regular]
  | .sc (.term _ _ _), h => by
    simp only [Node.inner, Node.deep, SC.deep, Regular, condBF_deep] at h ⊢
    exact h
  | .sc (.factor _), h => by simp only [Node.inner, Node.deep, SC.deep, Regular]
  | .pred (.between _ _ (.sc _) _), h => h.elim
  | .pred (.between _ _ (.nb _) _), h => by simp only [Node.inner, Node.deep, Pred.deep, VE.deep, Regular]
  | .pred (.like _ _ (.sc _)), h => h.elim
  | .pred (.like _ _ (.nb _)), h => by simp only [Node.inner, Node.deep, Pred.deep, VE.deep, Regular]
  | .pred (.inList v n l), h => by
    simp only [Node.inner, Node.deep, Pred.deep, Regular, firstArgs_deep] at h ⊢
    exact h
  | .pred (.cmp _ _ _), h => by simp only [Node.inner, Node.deep, Pred.deep, Regular]
  | .pred (.inSub _ _ _), h => by simp only [Node.inner, Node.deep, Pred.deep, Regular]
  | .pred (.null _ _), h => by simp only [Node.inner, Node.deep, Pred.deep, Regular]
  | .pred (.exist _), h => by simp only [Node.inner, Node.deep, Pred.deep, Regular]
  | .venb (.mk _ ts), h => by
    simp only [Node.inner, Node.deep, VENB.deep, Regular, strFactor_deep] at h ⊢
    exact minusOK_deep h
  | .numFn y, h => by
    cases y <;> simp only [Node.inner, Node.deep, NumFn.deep] <;> exact h
  | .result r, h => by
    cases r <;> simp only [Node.inner, Node.deep, CaseResult.deep] <;> exact h
  | .bp (.ve v), h => by
    simp only [Node.inner, Node.deep, BP.deep, Regular, startsParen_deep, firstExpr_deep] at h ⊢
    exact h
  | .bp (.pred _), h => by simp only [Node.inner, Node.deep, BP.deep, Regular]
  | .bp (.sc _), h => by simp only [Node.inner, Node.deep, BP.deep, Regular]
  | .subq (.jt j), h => by
    simp only [Node.inner, Node.deep, Subquery.deep, Regular, firstJT_deep] at h ⊢
    exact h
  | .subq (.qs _), h => by simp only [Node.inner, Node.deep, Subquery.deep, Regular]
  | .qj (.mk hd ss), h => by
    simp only [Node.inner, Node.deep, QJ.deep, Regular] at h ⊢
    refine ⟨fun q e => ?_, sufsOK_deep h.2⟩
    obtain t | q' | j := hd
    · simp only [QJHead.deep] at e; cases e
    · exact h.1 _ rfl
    · simp only [QJHead.deep, JT.deep] at e; cases e
  | .spec s, h => by
    cases s <;> simp only [Node.inner, Node.deep, JoinSpec.deep] <;> exact h
  | .tr (.derived (.qs _) _), h => by
    simp only [Node.inner, Node.deep, TR.deep, Subquery.deep]
    exact h
  | .tr (.derived (.jt _) _), h => h.elim
  | .tr (.tvf _ _), h => by
    simp only [Node.inner, Node.deep, TR.deep]
    exact h
  | .tr (.tc _), h => by simp only [Node.inner, Node.deep, TR.deep, Regular]
  | .tr (.jt _), h => by simp only [Node.inner, Node.deep, TR.deep, Regular]
  | .group (.col _), h => h.elim
  | .group (.ve _), h => by simp only [Node.inner, Node.deep, GroupTerm.deep, Regular]
  | .with_ (.mk _ _ _), h => by
    simp only [Node.inner, Node.deep, With.deep]
    exact h
  | .coordExpr e, h => by
    exact h
  | .term _, _ | .factor _, _ | .numPrim _, _ | .vep _, _ | .prim _, _ | .caseE _, _ | .simpleWhen _, _ | .searchedWhen _, _ | .jt _, _
  | .head _, _ | .suffix _, _ | .gpred _, _ | .geom _, _ | .where_ _, _ | .columns _, _ | .select _, _ | .sfw _, _ | .addon _, _
  | .sfwList _, _ | .query _, _ | .sort _, _ | .coord _, _ | .point _, _ | .shape _, _ | .pointOrCol _, _
  | .shapeOrCol _, _ => by simp only [Node.inner, Node.deep, Regular]

/-- Well-made trees stay well made, if the changed SELECTs do. -/
theorem wellMade_deep (hg : ∀ s, NoGeomSFW s → NoGeomSFW (f s))
    (hf : ∀ s, All (WellMade nt M) (.sfw s) → All (WellMade nt M) (.sfw (f s))) {n : Node} (h : All (WellMade nt M) n) :
    All (WellMade nt M) (n.deep f) :=
  deep_all (fun _ h => ⟨ranges_deep h.here.1, noGeometry_deep hg h.here.2.1, regular_deep h.here.2.2⟩) hf n h

end Adql
