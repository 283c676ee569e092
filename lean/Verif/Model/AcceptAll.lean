import Verif.Model.AcceptCase

/-!
# Running the grammar forward: the core language

Every text of the core language of `Spec/Core.lean` is read by the grammar as the tree it spells.
-/

namespace Adql.Fwd

open P Spec

variable {cfg : Config} {S : Mode} [Fits S cfg]

set_option linter.unusedSectionVars false

theorem condsT_blank {s : Str} {l : List SearchedWhen} (h : CondsT S s l) : BlankFirst s := by
  cases h with
  | one hk => exact blankFirst_append hk.2
  | cons hk => exact blankFirst_append hk.2

mutual

theorem exprT_full : ∀ {s v}, ExprT S s v → FullE cfg s v
  | _, _, .mk hs ht => full_expr (factorT_full hs) (termsT_good ht) (termsT_start ht)

theorem valT_full : ∀ {o g s x}, ValT S o g s x → FullV cfg o g s x
  | _, _, _, _, .expr h => (exprT_full h).val
  | _, _, _, _, .cond h => (condT_full h).val

theorem termsT_good : ∀ {q s ts}, TermsT S q s ts → GoodT cfg q s ts
  | _, _, _, .nil => good_nil
  | _, _, _, .cons hm ho hs hd ht => good_cons hm ho (factorT_full hs).good (fun e e' => (hd e e').1) (termsT_good ht)

theorem factorT_full : ∀ {s f}, FactorT S s f → FullS cfg s f
  | _, _, .plain h => full_plain (atomT_full h)
  | _, _, .signed hc ho h => full_signed hc ho (atomT_full h)

theorem atomT_full : ∀ {s p}, AtomT S s p → FullA cfg s p
  | _, _, .prim hs ht => full_prim (primT_full hs) (idxT_good ht) (idxT_start ht)
  | _, _, .fn h => full_fn (fnT_good h) h

theorem idxT_good : ∀ {s l}, IdxT S s l → GoodI cfg s l
  | _, _, .nil => good_idx_nil
  | _, _, .cons ho hs hc ht => good_idx_cons ho (valT_full hs).good hc (idxT_good ht)

theorem primT_full : ∀ {s p}, PrimT S s p → FullP cfg s p
  | _, _, .bool h => ⟨(good_bool h).q, fun _ hr => front_bool h hr⟩
  | _, _, .num hs ht => ⟨(good_num hs ht).q, fun _ _ => front_num hs ht⟩
  | _, _, .str hs ht => ⟨good_str hs ht, fun _ _ => front_str hs ht⟩
  | _, _, .col h => ⟨(good_col h).q, fun _ hr => front_col h (nameEnd_prim hr)⟩
  | _, _, .countStar hs ho ha hc => ⟨(good_countStar hs ho ha hc).q, fun _ _ => front_call' hs (by decide +kernel) ho⟩
  | _, _, .setFn hs ho hu hc => ⟨(good_setFn hs ho (valT_full hu).good hc).q, fun _ _ => front_calls' hs (by decide +kernel) ho⟩
  | _, _, .setFnQ hs ho hw hb hu hc =>
    ⟨(good_setFnQ hs ho hw hb (valT_full hu).good hc).q, fun _ _ => front_calls' hs (by decide +kernel) ho⟩
  | _, _, .sub ho hs hc => full_sub ho (valT_full hs) hc
  | _, _, .arr hs ho hu hc => ⟨(good_arr hs ho (argsT_full hu).good hc).q, fun _ _ => front_arr hs ho⟩
  | _, _, .null h => ⟨(good_null h).q, fun _ hr => front_null h hr⟩
  | _, _, .nullif hs ho hu hm hu' hc =>
    ⟨(good_nullif hs ho (valT_full hu).good hm (valT_full hu').good hc).q, fun _ _ => front_call' hs (by decide +kernel) ho⟩
  | _, _, .coalesce hs ho hu hc =>
    ⟨(good_coalesce hs ho (argsT_full hu).good hc).q, fun _ _ => front_call' hs (by decide +kernel) ho⟩
  | _, _, .caseOf hs hb hu hw he hk =>
    ⟨(good_caseOf hs hb (valT_full hu).good (whensT_good hw) (elseT_good he) hk).q, fun _ _ => front_case hs (blankFirst_append hb)⟩
  | _, _, .caseWhen hs hw he hk =>
    ⟨(good_caseWhen hs (condsT_good hw) (elseT_good he) hk).q, fun _ _ => front_case hs (blankFirst_append (condsT_blank hw))⟩
  | _, _, .any hs ho hu hc => ⟨(good_any hs ho (valT_full hu).good hc).q, fun _ _ => front_call' hs (by decide +kernel) ho⟩
  | _, _, .nullCast h => ⟨(good_nullCast h).q, fun _ _ => front_nullCast h⟩

theorem whensT_good : ∀ {s l}, WhensT S s l → GoodWhens cfg s l
  | _, _, .one hk hbu hu ht hbx hx => good_whensOne hk hbu (valT_full hu).good ht hbx (valT_full hx).good
  | _, _, .cons hk hbu hu ht hbx hx hw =>
    good_whensCons hk hbu (valT_full hu).good ht hbx (valT_full hx).good (whensT_good hw)

theorem condsT_good : ∀ {s l}, CondsT S s l → GoodConds cfg s l
  | _, _, .one hk hbu hu ht hbx hx => good_condsOne hk hbu (condT_full hu).good ht hbx (valT_full hx).good
  | _, _, .cons hk hbu hu ht hbx hx hw =>
    good_condsCons hk hbu (condT_full hu).good ht hbx (valT_full hx).good (condsT_good hw)

theorem elseT_good : ∀ {s x}, ElseT S s x → GoodElse cfg s x
  | _, _, .none => good_elseNone
  | _, _, .some hk hb h => good_elseSome hk hb (valT_full h).good

theorem fnT_good : ∀ {s f}, FnT S s f → GoodF cfg s f
  | _, _, .trig1 hs ho hu hc => good_trig1 hs ho (valT_full hu).good hc
  | _, _, .trig2 hs ho hu hm hu' hc => good_trig2 hs ho (valT_full hu).good hm (valT_full hu').good hc
  | _, _, .math0 hs ho hc => good_math0 hs ho hc
  | _, _, .math1 hs ho hu hc => good_math1 hs ho (valT_full hu).good hc
  | _, _, .math2 hs ho hu hm hu' hc => good_math2 hs ho (valT_full hu).good hm (valT_full hu').good hc
  | _, _, .udf0 hs hf ho hc => good_udf0 hs hf ho hc
  | _, _, .udf hs hf ho hu hc => good_udf hs hf ho (argsT_full hu).good hc
  | _, _, .udfKw0 hs ho hc => good_udfKw0 hs ho hc
  | _, _, .udfKw hs ho hu hc => good_udfKw hs ho (argsT_full hu).good hc
  | _, _, .cast hs ho hu ha hk hb hl hc => good_cast hs ho (valT_full hu).good ha hk hb hl hc
  | _, _, .coord hs ho hu hc => good_coord hs ho hu hc
  | _, _, .distance hs ho hu hm hu' hc => good_distance hs ho hu hm hu' hc
  | _, _, .now hs => good_now hs

theorem argsT_full : ∀ {s l}, ArgsT S s l → FullArgs cfg s l
  | _, _, .one h => full_argsOne (valT_full h)
  | _, _, .cons h hm ht => full_argsCons (valT_full h) hm (argsT_full ht)

theorem condT_full : ∀ {h o s c}, CondT S h o s c → FullC cfg h o s c
  | _, _, _, _, .factor h => full_factorC (bfactT_full h)
  | _, _, _, _, .term h hk hb ht => full_term (bfactT_full h) hk hb (condT_full ht).good

theorem bfactT_full : ∀ {h o g s c}, BFactT S h o g s c → FullBF cfg h o g s c
  | _, _, _, _, _, .plain h hn => full_fplain (bprimT_full h) fun e => hn (nots_off e)
  | _, _, _, _, _, .not hk hb h => full_fnot hk hb (bprimT_full h)

theorem bprimT_full : ∀ {h o g s c}, BPrimT S h o g s c → FullB cfg h o g s c
  | _, _, _, _, _, .pred h => full_pred (predT_full h)
  | _, _, _, _, _, .paren ho h hc => full_paren ho (condT_full h) hc
  | _, _, _, _, _, .bare h hn he => full_bare (exprT_full h) hn he

theorem predT_full : ∀ {h o g s c}, PredT S h o g s c → FullPr cfg h o g s c
  | _, _, _, _, _, .cmp hs hop ho ht => full_cmp (exprT_full hs) hop ho (valT_full ht).good
  | _, _, _, _, _, .between hs hk hb hbt ht ha hbu hu =>
    full_between (exprT_full hs) hk hb hbt (exprT_full ht).good ha hbu (valT_full hu).good
  | _, _, _, _, _, .inList hs hk hb ho hu h1 h2 hc =>
    full_inList (exprT_full hs) hk hb ho (argsT_full hu).good hc fun r => (argsT_full hu).noSubq h1 h2 ho hc r
  | _, _, _, _, _, .inSub hs hk hb ht => full_inSub (exprT_full hs) hk hb (subqT_good ht).run
  | _, _, _, _, _, .null hs hi hk hu => full_nullP (exprT_full hs) hi hk hu
  | _, _, _, _, _, .like hs hk hl hb ht => full_like (exprT_full hs) hk hl hb (exprT_full ht).good
  | _, _, _, _, _, .exist he hb ht => full_exists he hb (subqT_good ht).run

theorem subqT_good : ∀ {s q}, SubqT S s q → GoodSub cfg s q
  | _, _, .mk ho h hc => good_subquery ho (queryT_good h) hc
  | _, _, .join ho h h1 h2 hc => good_subjoin ho (joinT_good h) h1 h2 hc

theorem queryT_good : ∀ {G s q}, QueryT S G s q → GoodQ cfg G s q
  | _, _, _, .mk hs hg hh ho => good_query (sfwsT_good hs) (groupT_good hg) (havingT_good hh) ho
  | _, _, _, .with hw hn hbn hx hl ha hbt ht hs hg hh ho =>
    good_with hw hn hbn hx hl ha hbt (subqT_good ht) (sfwsT_good hs) (groupT_good hg) (havingT_good hh) ho

theorem groupT_good : ∀ {s l}, GroupT S s l → GoodGroup cfg s l
  | _, _, .none => good_groupNone
  | _, _, .some hg hb hbs hs => good_groupSome hg hb hbs (gargsT_good hs)

theorem gargsT_good : ∀ {s l}, GArgsT S s l → GoodGArgs cfg s l
  | _, _, .one h => good_gargsOne (valT_full h).good
  | _, _, .cons h hm ht => good_gargsCons (valT_full h).good hm (gargsT_good ht)

theorem havingT_good : ∀ {s c}, HavingT S s c → GoodHaving cfg s c
  | _, _, .none => good_havingNone
  | _, _, .some hk hb h => good_having hk hb (condT_full h).good

theorem sfwsT_good : ∀ {G s l}, SfwsT S G s l → GoodSfws cfg G s l
  | _, _, _, .mk hs ht => good_sfws (sfwT_good hs) (addonsT_good ht)

theorem addonsT_good : ∀ {G s l}, AddonsT S G s l → GoodAdd cfg G s l
  | _, _, _, .nil => good_addNil
  | _, _, _, .cons hu hb hs ht => good_addCons hu hb (sfwT_good hs) (addonsT_good ht)

theorem sfwT_good : ∀ {G s x}, SfwT S G s x → GoodSfw cfg G s x
  | _, _, _, .mk hk hq hp hb hc hf hbt ht hw => good_sfw hk hq hp hb (columnsT_good hc) hf hbt (tabsT_good ht) (whereT_good hw)

theorem columnsT_good : ∀ {s x}, ColumnsT S s x → GoodCols cfg s x
  | _, _, .star h => good_colsStar h
  | _, _, .items h => good_colsItems (itemsT_good h)

theorem itemsT_good : ∀ {s l}, ItemsT S s l → GoodItems cfg s l
  | _, _, .one h => good_itemsOne (itemT_good h)
  | _, _, .cons h hm ht => good_itemsCons (itemT_good h) hm (itemsT_good ht)

theorem itemT_good : ∀ {s x}, ItemT S s x → GoodItem cfg s x
  | _, _, .as h ha ht hb hx => good_itemAs (valT_full h).good ha ht hb hx
  | _, _, .all h hn => good_itemAll h hn
  | _, _, .upAll h hn => good_itemUp h hn
  | _, _, .expr h => good_itemExpr (valT_full h)

theorem whereT_good : ∀ {G s x}, WhereT S G s x → GoodWhere cfg G s x
  | _, _, _, .none => good_whereNone
  | _, _, _, .some hk hb h => good_where hk hb (condT_full h).good
  | _, _, _, .geom hk hb h => good_whereGeom hk hb (geomT_good h)
  | _, _, _, .geomAnd hk hb h ha hbt ht => good_whereGeomAnd hk hb (geomT_good h) ha hbt (condT_full ht).good
  | _, _, _, .geomParen hk hb ho h hc => good_whereGeomParen hk hb ho (geomT_good h) hc

theorem gpredT_good : ∀ {s p}, GPredT S s p → GoodGP cfg s p
  | _, _, .contains hk ho hs hm hu hc => good_contains hk ho hs hm hu hc
  | _, _, .intersects hk ho hs hm hu hc => good_intersects hk ho (valT_full hs).good hm hu hc

theorem geomT_good : ∀ {s g}, GeomT S s g → GoodGeom cfg s g
  | _, _, .left hx hf hq hs => good_geomLeft hx hf hq (gpredT_good hs)
  | _, _, .right hs hq hx hf => good_geomRight (gpredT_good hs) hq hx hf
  | _, _, .bare hs => good_geomBare (gpredT_good hs)

theorem tabsT_good : ∀ {s l}, TabsT S s l → GoodTabs cfg s l
  | _, _, .one h => good_tabsOne (tabT_good h)
  | _, _, .cons h hm ht => good_tabsCons (tabT_good h) hm (tabsT_good ht)

theorem tabT_good : ∀ {k s t}, TabT S k s t → GoodTab cfg k s t
  | _, _, _, .tc h => good_tabTc h
  | _, _, _, .fn hk hn hs hc hd => good_tabFn hk hn hs hc hd
  | _, _, _, .join h => good_tabJoin (joinT_good h)
  | _, _, _, .derived h ha => good_derived (subqT_good h) ha

theorem joinT_good : ∀ {k s j}, JoinT S k s j → GoodJoin cfg k s j
  | _, _, _, .mk h ht => good_join (headT_good h) (sufsT_good ht)
  | _, _, _, .paren ho h hc => good_joinParen ho (joinT_good h) hc

theorem headT_good : ∀ {s h}, HeadT S s h → GoodHead cfg s h
  | _, _, .tc h => good_headTc h
  | _, _, .paren ho h hc => good_headParen ho (joinT_good h) hc

theorem sufsT_good : ∀ {i k s l}, SufsT S i k s l → GoodSufs cfg i k s l
  | _, _, _, _, .one h => good_sufs_one (sufT_good h)
  | _, _, _, _, .cons h ht ho => good_sufs_cons (sufT_good h) (sufsT_good ht) ho
  | _, _, _, _, .bare hn hy hj hb ht hx hu => good_sufs_bare hn hy hj hb (tabT_good ht) hx (sufsT_good hu)

theorem sufT_good : ∀ {i k o s x}, SufT S i k o s x → GoodSuf cfg i k o s x
  | _, _, _, _, _, .mk hn hy hj hb ht hp hk => good_suf hn hy hj hb (tabT_good ht) (specT_good hp) hk

theorem specT_good : ∀ {k o s x}, SpecT S k o s x → GoodSpec cfg k o s x
  | _, _, _, _, .none => good_specNone
  | _, _, _, _, .on hk hb h => good_specOn hk hb (condT_full h).good
  | _, _, _, _, .using hk hb ho hs hc => good_specUsing hk hb ho hs hc

end

theorem exprT_good {s : Str} {v : VENB} (h : ExprT S s v) : GoodE cfg s v := (exprT_full h).good

theorem condT_good {h : Head} {o : Bool} {s : Str} {c : SC} (hc : CondT S h o s c) : GoodC cfg h o s c := (condT_full hc).good

theorem atomT_good {s : Str} {p : NumPrim} (h : AtomT S s p) : GoodA cfg s p := (atomT_full h).good

end Adql.Fwd
