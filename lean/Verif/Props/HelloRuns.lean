import Verif.Props.Hello

/-!
# C132: the steps of examples/tutorial/example1.py run to the end
-/

namespace Trumania
namespace Hello
open Spec World Circus Cdr
variable {σ : Type} {env : Env σ (AnyGen σ)} {w w' : World σ (AnyGen σ)} {sc : Scene}
  {c c' : Circus σ (AnyGen σ)} {all ids : List Val}

/-! ### The declarations of the steps -/

/-- the sites, that all persons have, and the friends -/
def relKind (ids : List Val) : Nat → RelKind
  | 0 => ⟨fun _ => True, (· ∈ ids), false⟩
  | _ => ⟨(· ∈ ids), fun _ => False, false⟩

/-- what the circus of a step has -/
def signature (env : Env σ (AnyGen σ)) (sc : Scene) (ids : List Val) (q : Population) (w : World σ (AnyGen σ)) :
    Sig (AnyGen σ) :=
  ⟨w.clock.step, w.gens.map (Descends env), sc.step.rels.map (relKind ids), [attKinds q],
    [⟨(· ∈ ids), fun st => st = .str "default" ∨ False, "PERSON_ID"⟩]⟩

theorem sites_fit {r : Relationship σ} {st : Step} (hr : Relationship.Reachable env.R r)
    (h : SitesGiven st.weights all ids (r.get_relations env.orders)) : RelFits env (relKind ids 0) r := by
  have hne : st.weights ≠ [] := by cases st <;> simp [Step.weights]
  have heach := h.each hne
  obtain ⟨drawn, e1, e2, hp⟩ := h
  have hpos : ∀ q ∈ st.weights, (0 : Rat) < q := by
    intro q hq
    have : q = 1 ∨ q = 2/5 ∨ q = 3/10 ∨ q = 1/10 := by
      revert hq
      cases st <;> simp [Step.weights] <;> tauto
    rcases this with rfl | rfl | rfl | rfl <;> norm_num
  have hw : ∀ x ∈ r.get_relations env.orders, 0 < x.2.2 := by
    intro x hx
    obtain ⟨y, hy, hx⟩ := List.mem_flatMap.1 (hp.mem_iff.1 hx)
    obtain ⟨z, -, rfl⟩ := List.mem_map.1 hx
    exact hpos _ (List.of_mem_zip hy).1
  exact ⟨hr, fun x hx => ⟨(hw x hx).le, trivial⟩, fun x hx => ⟨x, hx, rfl, hw x hx⟩, (by intro h; cases h), heach⟩

/-- the circus that a step builds is as declared -/
theorem fits {p : Params} {g : Parts (AnyGen σ)} {b : SeqGen} (hr : Ready env sc all (idsFrom b p.nPersons) w)
    (ho : Opening p g b env sc w) :
    ∃ q, w.pops[0]? = some q ∧ Fits env (signature env sc (idsFrom b p.nPersons) q w) w := by
  obtain ⟨q, hq, hids, -⟩ := ho.persons
  obtain ⟨l1, l2, x, hx, hbeg, hcon⟩ := ho.only
  have hfield := hr.field x (by rw [hx]; rfl)
  have hpops : w.pops = [q] := by
    obtain ⟨p, hp⟩ := List.length_eq_one_iff.1 l1
    rw [hp] at hq ⊢
    cases hq
    rfl
  refine ⟨q, hq, rfl, (gens_fit rfl).1, (gens_fit rfl).2, ?_, ?_, ?_⟩
  · have hQ : ∀ r, w.rels[0]? = some r → 0 ∈ sc.step.rels → RelFits env (relKind (idsFrom b p.nPersons) 0) r := by
      intro r h0 hm
      obtain ⟨r', h0', hreach⟩ := hr.stocks 0 hm
      obtain ⟨r'', h0'', hs⟩ := ho.sites hm
      rw [h0] at h0' h0''
      cases h0'
      cases h0''
      exact sites_fit hreach (hs env.orders)
    have hF : ∀ r, w.rels[1]? = some r → 1 ∈ sc.step.rels → RelFits env (relKind (idsFrom b p.nPersons) 1) r := by
      intro r h0 hm
      obtain ⟨r', h0', hreach⟩ := hr.stocks 1 hm
      obtain ⟨r'', h0'', hs⟩ := ho.friends hm
      rw [h0] at h0' h0''
      cases h0'
      cases h0''
      have hw : ∀ x ∈ r.get_relations env.orders, 0 < x.2.2 := fun x hx => by
        rw [(hs env.orders x hx).2.2]
        exact one_pos
      exact ⟨hreach, fun x hx => ⟨(hw x hx).le, (hs env.orders x hx).2.1⟩, fun x hx => ⟨x, hx, rfl, hw x hx⟩,
        (by intro h; cases h), fun _ h => h.elim⟩
    change List.Forall₂ _ (sc.step.rels.map _) _
    have h3 : sc.step.rels = [] ∨ sc.step.rels = [0] ∨ sc.step.rels = [0, 1] := by cases sc.step <;> simp [Step.rels]
    rcases h3 with e | e | e
    · rw [e] at l2 ⊢
      rw [List.length_eq_zero_iff.1 l2]
      exact .nil
    · rw [e] at l2 hQ ⊢
      obtain ⟨r, e⟩ := List.length_eq_one_iff.1 l2
      rw [e] at hQ ⊢
      exact .cons (hQ r rfl (by simp)) .nil
    · rw [e] at l2 hQ hF ⊢
      obtain ⟨r, r', e⟩ := List.length_eq_two.1 l2
      rw [e] at hQ hF ⊢
      exact .cons (hQ r rfl (by simp)) (.cons (hF r' rfl (by simp)) .nil)
  · rw [hpops]
    exact .cons (pop_fits q) .nil
  · rw [hx]
    have hn : (idsFrom b p.nPersons).Nodup := idsFrom_nodup _ _
    refine .cons ?_ .nil
    rw [← hfield]
    exact story_fits hn hbeg (.inl ⟨_, hcon⟩) (by rw [hcon]; exact .constSeries (.inr ⟨0, rfl⟩))

/-- the price of calls whose durations are numbers, or missing -/
theorem price_safe {M : Val → Prop} {As : List (Val → Cell → Prop)} {d : Frame}
    (h : Typed M (["DURATION", "SITE", "COUNTERPART_SITE"].zip ((fun _ => IsAmount) :: As)) d) :
    ∃ r, price d = .ok r ∧ r.index = d.index ∧
      Typed M [("PRICE", fun _ => IsAmount), ("CURRENCY", fun _ _ => True)] r := by
  obtain ⟨cs, h1, h2, h3⟩ := h.col' (name := "DURATION") (A := IsAmount) ⟨_, .head _, fun _ _ _ h => h⟩
  have hp : ∃ prices, cs.mapM priceCell = .ok prices ∧ ∀ c ∈ prices, IsAmount c := by
    obtain ⟨prices, hp⟩ := mapM_isOk (f := priceCell) (l := cs) fun c hc => by
      rcases h3 c hc with rfl | ⟨q, rfl⟩
      · exact ⟨_, rfl⟩
      · exact ⟨_, rfl⟩
    refine ⟨prices, hp, fun c hc => ?_⟩
    obtain ⟨x, -, e⟩ := forall₂_exists_left (mapM_ok_iff.1 hp) hc
    rcases costs_of e with ⟨q, -, rfl⟩ | ⟨-, rfl⟩
    · exact .inr ⟨_, rfl⟩
    · exact .inl rfl
  obtain ⟨prices, hp, hP⟩ := hp
  have hr : price d = .ok ⟨["PRICE", "CURRENCY"], (d.index.zip prices).map fun x => ⟨x.1, [x.2, .str "EUR"]⟩⟩ :=
    bind_eq_ok.2 ⟨cs, h1, bind_eq_ok.2 ⟨prices, hp, rfl⟩⟩
  obtain ⟨e1, e2, e3, -⟩ := price_ok hr
  refine ⟨_, hr, e2, rfl, by simp [Ctx.names], by rw [e2]; exact h.index, by rw [e2]; exact h.labels, fun r hm => ?_⟩
  obtain ⟨x, hx, rfl⟩ := List.mem_map.1 hm
  exact .cons (hP _ (List.of_mem_zip hx).2) (.cons trivial .nil)

/-- the operations of a step are safe -/
theorem safe (hsem : env.sem = AnyGen.sem env.R) {p : Params} {g : Parts (AnyGen σ)} {b : SeqGen}
    (hd : ∀ seed, AlwaysGives env (g.durations seed) IsAmount) (hs : 0 < p.nSites)
    (hr : Ready env sc (idsFrom g.siteIds p.nSites) (idsFrom b p.nPersons) w) (ho : Opening p g b env sc w)
    (hstep : nsPerSec ≤ w.clock.step) {q : Population} (hq : w.pops[0]? = some q)
    (hpop : 1 ∈ sc.step.rels → ∀ a, attributeOf q "POPULARITY" a → ∀ i x, Holds a i (.num x) → 0 < x) :
    List.Forall₂ (SafeStory env (signature env sc (idsFrom b p.nPersons) q w))
      (signature env sc (idsFrom b p.nPersons) q w).stories (sc.chains env) := by
  refine .cons (C101_set_operations rfl ?_) .nil
  have hne : idsFrom g.siteIds p.nSites ≠ [] := by
    intro e
    have := Music.length_idsFrom g.siteIds p.nSites
    rw [e] at this
    simp at this
    omega
  obtain ⟨q', hq', hids, hname, hweights⟩ := ho.persons
  rw [hq] at hq'
  cases hq'
  have hk : sc.step ≠ .one → ∃ k, (attKinds q).get? "NAME" = some k ∧ ∀ i ∈ idsFrom b p.nPersons, k.known i := by
    intro h1
    obtain ⟨a, ha, hh⟩ := hname h1
    refine ⟨_, attKinds_get (hr.wf q (List.mem_of_getElem? hq)) ha, fun i hi => ?_⟩
    obtain ⟨c, hc⟩ := hh i (by rw [hids]; exact hi)
    exact List.mem_map_of_mem (f := Prod.fst) hc
  have hW : 1 ∈ sc.step.rels → ∀ i ∈ idsFrom b p.nPersons, ∃ x, sc.weights.get? i = some x ∧ 0 < x := by
    intro h1 i hi
    obtain ⟨a, ha, hh⟩ := hweights h1
    obtain ⟨x, h2, h3⟩ := hh i (by rw [hids]; exact hi)
    exact ⟨x, h3, hpop h1 a ha i x h2⟩
  have hdur : sc.step ≠ .one → sc.step ≠ .two →
      GenOk env (signature env sc (idsFrom b p.nPersons) q w) sc.duration .size IsAmount := by
    intro h1 h2
    obtain ⟨seed, hb⟩ := ho.durations h1 h2
    exact genOk_gives rfl hb (hd seed)
  have hsite : sc.step = .three → GenOk env (signature env sc (idsFrom b p.nPersons) q w) sc.site .size
      (IdIn (· ∈ idsFrom g.siteIds p.nSites)) := by
    intro h3
    obtain ⟨x, hx⟩ := hr.site h3
    exact genOk_gives rfl hx (gives_choice hsem hne)
  have hrel0 : 0 ∈ sc.step.rels →
      (signature env sc (idsFrom b p.nPersons) q w).rels[0]? = some (relKind (idsFrom b p.nPersons) 0) := by
    intro h
    change (sc.step.rels.map _)[0]? = _
    revert h
    cases sc.step <;> simp [Step.rels]
  have hrel1 : 1 ∈ sc.step.rels →
      (signature env sc (idsFrom b p.nPersons) q w).rels[1]? = some (relKind (idsFrom b p.nPersons) 1) := by
    intro h
    change (sc.step.rels.map _)[1]? = _
    revert h
    cases sc.step <;> simp [Step.rels]
  -- the operations
  have oName : ∀ {Γ : Ctx}, sc.step ≠ .one → Γ.Has (· ∈ idsFrom b p.nPersons) "PERSON_ID" (fun l c => c = .scalar l) →
      (Γ.names ++ ["NAME"]).Nodup → Safe env (signature env sc (idsFrom b p.nPersons) q w) (· ∈ idsFrom b p.nPersons) Γ
        (lookupName 0) (Γ ++ [("NAME", fun _ => attValue (attKinds q) "NAME")]) := by
    rintro Γ h1 ⟨k, hk1, hk2⟩ hn
    obtain ⟨kk, e1, e2⟩ := hk h1
    refine .lookup (P := attKinds q) rfl ⟨k, hk1, fun i c hi hc => ⟨i, hk2 i c hi hc⟩⟩ (fun x hx => ?_) hn
    obtain rfl : x = ("NAME", "NAME") := by simpa using hx
    exact ⟨kk, e1, k, hk1, fun i c hi hc => ⟨i, hk2 i c hi hc, e2 i hi⟩⟩
  have oHello : ∀ {Γ : Ctx}, "HELLO" ∉ Γ.names → Safe env (signature env sc (idsFrom b p.nPersons) q w)
      (· ∈ idsFrom b p.nPersons) Γ (hello env) (Γ ++ [("HELLO", fun _ _ => True)]) := fun hn =>
    .randomValues (P := fun _ => True) (.constSize trivial) hn
  have oTime : ∀ {Γ : Ctx}, "TIME" ∉ Γ.names → Safe env (signature env sc (idsFrom b p.nPersons) q w)
      (· ∈ idsFrom b p.nPersons) Γ (timestamp env sc.fmt) (Γ ++ [("TIME", fun _ _ => True)]) := fun hn =>
    .timestamp (P := fun _ => True) (fun _ => trivial) (fun _ => hstep) hn
  have oDur : ∀ {Γ : Ctx}, sc.step ≠ .one → sc.step ≠ .two → "DURATION" ∉ Γ.names →
      Safe env (signature env sc (idsFrom b p.nPersons) q w) (· ∈ idsFrom b p.nPersons) Γ (durations env sc.duration)
        (Γ ++ [("DURATION", fun _ => IsAmount)]) := fun h1 h2 hn => .randomValues (hdur h1 h2) hn
  have oLog : ∀ {Γ : Ctx}, Safe env (signature env sc (idsFrom b p.nPersons) q w)
      (· ∈ idsFrom b p.nPersons) Γ logger Γ := .fieldLogger (by simp)
  have oSite : ∀ {Γ : Ctx} (of named : String), 0 ∈ sc.step.rels →
      (Γ.Has (· ∈ idsFrom b p.nPersons) of fun _ => IdIn (· ∈ idsFrom b p.nPersons)) → named ∉ Γ.names →
      Safe env (signature env sc (idsFrom b p.nPersons) q w) (· ∈ idsFrom b p.nPersons) Γ (selectSite env 0 of named)
        (Γ ++ [(named, fun _ => IdIn fun _ => True)]) := fun of named h0 hf hn =>
    .selectOneOwned (K := relKind (idsFrom b p.nPersons) 0) (hrel0 h0) (by simp) hf (by simp) hn
  have oFriend : ∀ {Γ : Ctx}, 1 ∈ sc.step.rels → (Γ.Has (· ∈ idsFrom b p.nPersons) "PERSON_ID" fun _ => IsId) →
      "COUNTERPART_ID" ∉ Γ.names →
      Safe env (signature env sc (idsFrom b p.nPersons) q w) (· ∈ idsFrom b p.nPersons) Γ
        (selectFriend env 1 sc.weights) (Γ ++ [("COUNTERPART_ID", fun _ => IdIn (· ∈ idsFrom b p.nPersons))]) := by
    intro Γ h1 hf hn
    refine .selectOne (d := true) (K := relKind (idsFrom b p.nPersons) 1) (hrel1 h1) (by simp) hf ?_ hn
    rintro D h v hv
    cases h
    exact hW h1 v hv
  have oFriendName : ∀ {Γ : Ctx}, sc.step ≠ .one →
      (Γ.Has (· ∈ idsFrom b p.nPersons) "COUNTERPART_ID" fun _ => IdIn (· ∈ idsFrom b p.nPersons)) →
      (Γ.names ++ ["COUNTER_PART_NAME"]).Nodup → Safe env (signature env sc (idsFrom b p.nPersons) q w)
        (· ∈ idsFrom b p.nPersons) Γ (lookupFriend 0)
        (Γ ++ [("COUNTER_PART_NAME", fun _ => attValue (attKinds q) "NAME")]) := by
    rintro Γ h1 ⟨k, hk1, hk2⟩ hn
    obtain ⟨kk, e1, e2⟩ := hk h1
    refine .lookup (P := attKinds q) rfl ⟨k, hk1, fun i c hi hc => ?_⟩ (fun x hx => ?_) hn
    · obtain ⟨v, hv, -⟩ := hk2 i c hi hc
      exact ⟨v, hv⟩
    obtain rfl : x = ("NAME", "COUNTER_PART_NAME") := by simpa using hx
    refine ⟨kk, e1, k, hk1, fun i c hi hc => ?_⟩
    obtain ⟨v, hv, hm⟩ := hk2 i c hi hc
    exact ⟨v, hv, e2 v hm⟩
  have self : ∀ {Γ : Ctx}, Ctx.Has (("PERSON_ID", fun l c => c = .scalar l) :: Γ) (· ∈ idsFrom b p.nPersons) "PERSON_ID"
      (fun l c => c = .scalar l) := fun {Γ} => ⟨_, .head _, fun _ _ _ h => h⟩
  have selfIn : ∀ {Γ : Ctx}, Ctx.Has (("PERSON_ID", fun l c => c = .scalar l) :: Γ) (· ∈ idsFrom b p.nPersons) "PERSON_ID"
      (fun _ => IdIn (· ∈ idsFrom b p.nPersons)) := fun {Γ} => ⟨_, .head _, fun i _ hi h => ⟨i, h, hi⟩⟩
  have selfId : ∀ {Γ : Ctx}, Ctx.Has (("PERSON_ID", fun l c => c = .scalar l) :: Γ) (· ∈ idsFrom b p.nPersons) "PERSON_ID"
      (fun _ => IsId) := fun {Γ} => ⟨_, .head _, fun i _ _ h => ⟨i, h⟩⟩
  have start : ([("PERSON_ID", fun l c => c = .scalar l)] : Ctx) = ("PERSON_ID", fun l c => c = .scalar l) :: [] := rfl
  cases hst : sc.step with
  | one =>
    exact ⟨_, .cons (oHello (by simp [Ctx.names])) (.cons oLog .nil)⟩
  | two =>
    exact ⟨_, .cons (oName (by simp [hst]) self (by simp [Ctx.names])) (.cons (oHello (by simp [Ctx.names]))
      (.cons (oTime (by simp [Ctx.names])) (.cons oLog .nil)))⟩
  | three =>
    exact ⟨_, .cons (oName (by simp [hst]) self (by simp [Ctx.names])) (.cons (oHello (by simp [Ctx.names]))
      (.cons (oDur (by simp [hst]) (by simp [hst]) (by simp [Ctx.names]))
      (.cons (.randomValues (hsite hst) (by simp [Ctx.names]))
      (.cons (oTime (by simp [Ctx.names])) (.cons oLog .nil)))))⟩
  | four =>
    exact ⟨_, .cons (oName (by simp [hst]) self (by simp [Ctx.names])) (.cons (oHello (by simp [Ctx.names]))
      (.cons (oDur (by simp [hst]) (by simp [hst]) (by simp [Ctx.names]))
      (.cons (oSite _ _ (by simp [hst, Step.rels]) selfIn (by simp [Ctx.names]))
      (.cons (oTime (by simp [Ctx.names])) (.cons oLog .nil)))))⟩
  | five =>
    exact ⟨_, .cons (oName (by simp [hst]) self (by simp [Ctx.names])) (.cons (oHello (by simp [Ctx.names]))
      (.cons (oDur (by simp [hst]) (by simp [hst]) (by simp [Ctx.names]))
      (.cons (oSite _ _ (by simp [hst, Step.rels]) selfIn (by simp [Ctx.names]))
      (.cons (oTime (by simp [Ctx.names])) (.cons oLog .nil)))))⟩
  | six =>
    exact ⟨_, .cons (oName (by simp [hst]) self (by simp [Ctx.names])) (.cons (oHello (by simp [Ctx.names]))
      (.cons (oDur (by simp [hst]) (by simp [hst]) (by simp [Ctx.names]))
      (.cons (oSite _ _ (by simp [hst, Step.rels]) selfIn (by simp [Ctx.names]))
      (.cons (oFriend (by simp [hst, Step.rels]) selfId (by simp [Ctx.names]))
      (.cons (oFriendName (by simp [hst]) ⟨fun _ => IdIn (· ∈ idsFrom b p.nPersons), by simp, fun _ _ _ h => h⟩
        (by simp [Ctx.names]))
      (.cons (oTime (by simp [Ctx.names])) (.cons oLog .nil)))))))⟩
  | seven =>
    exact ⟨_, .cons (oName (by simp [hst]) self (by simp [Ctx.names])) (.cons (oHello (by simp [Ctx.names]))
      (.cons (oDur (by simp [hst]) (by simp [hst]) (by simp [Ctx.names]))
      (.cons (oFriend (by simp [hst, Step.rels]) selfId (by simp [Ctx.names]))
      (.cons (oFriendName (by simp [hst]) ⟨fun _ => IdIn (· ∈ idsFrom b p.nPersons), by simp, fun _ _ _ h => h⟩
        (by simp [Ctx.names]))
      (.cons (oSite _ _ (by simp [hst, Step.rels]) selfIn (by simp [Ctx.names]))
      (.cons (oSite _ _ (by simp [hst, Step.rels])
        ⟨fun _ => IdIn (· ∈ idsFrom b p.nPersons), by simp, fun _ _ _ h => h⟩ (by simp [Ctx.names]))
      (.cons (.applyFrame (As := [fun _ => IsAmount, fun _ _ => True, fun _ _ => True])
        (.cons ⟨fun _ => IsAmount, by simp, fun _ _ _ h => h⟩ (.cons ⟨fun _ => IdIn fun _ => True, by simp, fun _ _ _ _ => trivial⟩
          (.cons ⟨fun _ => IdIn fun _ => True, by simp, fun _ _ _ _ => trivial⟩ .nil))) (by decide)
        (fun d hd => price_safe hd) rfl (by simp [Ctx.names]))
      (.cons (oTime (by simp [Ctx.names])) (.cons oLog .nil)))))))))⟩

/-- **C132** The run of a step never raises, whatever its duration, provided that the generator of the durations always
gives numbers. The steps of the clock must last at least one second, there must be a site and, in steps 6 and 7, all
popularities must be positive. The folder of the logs must be absent or deletable, and no file may be in the way of its
creation. -/
theorem C132_hello_runs (hsem : env.sem = AnyGen.sem env.R) {p : Params} (hs : 0 < p.nSites) {g : Parts (AnyGen σ)}
    {b : SeqGen} (hg : g.Usual b) (hd : ∀ seed, AlwaysGives env (g.durations seed) IsAmount) {fmt : Int → Cell}
    {name : String} {seed start step : Int} (hstep : nsPerSec ≤ step)
    (hnew : Circus.new env.R name seed start step = .ok c) {st : Step} {ops : List (Op (World σ (AnyGen σ)))}
    (hbuild : st.build env p g fmt c = .ok ops c')
    (hpop : st = .six ∨ st = .seven → ∀ q a, c'.world.pops[0]? = some q → attributeOf q "POPULARITY" a →
      ∀ i x, Holds a i (.num x) → 0 < x)
    {text : Cell → Text} {folder : Path} (so : SetOrder String) (fuel d : Nat) (duration : Int) (delete : Bool) {fs : FS}
    (htree : Tree fs) (hroot : At fs [] .dir) (hne : folder ≠ [])
    (hc : ∀ q t, Below q folder → At fs q (.file t) → q = folder) (hdepth : DepthBelow fs folder d) (hfuel : d < fuel)
    (hdel : delete = true ∨ Absent fs folder) :
    ∃ s', Sys.run env text folder so fuel [ops] duration delete ⟨c', fs⟩ = .ok () s' := by
  have h0 : (0 : Int) < step := lt_of_lt_of_le (by decide) hstep
  obtain ⟨-, e2, sc, rfl, -, e3, hr, ho⟩ := C127_built hsem hg h0.le hnew hbuild
  obtain ⟨q, hq, hfit⟩ := fits hr ho
  have hsafe := safe hsem hd hs hr ho (by rw [e2]; exact hstep) hq (fun h1 a ha => hpop (by
    revert h1
    cases sc.step <;> simp [Step.rels]) q a hq ha)
  rw [← e3] at hsafe
  obtain ⟨s', h, -⟩ := C101_run so fuel d duration delete ⟨c', fs⟩ hfit (by
    change c'.world.clock.step ≠ 0
    rw [e2]
    omega) hsafe htree hroot hne hc hdepth hfuel hdel
  exact ⟨s', h⟩

/-! ### Non-vacuity -/

/-- all popularities of a population are positive numbers -/
def allLiked (q : Population) : Bool :=
  q.attributes.all fun x => decide (x.1 ≠ "POPULARITY") || x.2.table.all fun y => match y.2 with
    | .scalar (.num v) => decide (0 < v)
    | _ => false

theorem exLiked : (exBuild .seven).map (fun x => x.2.world.pops.all allLiked) = some true := by decide +kernel

/-- the run of step 7 of the example with three persons ends, whatever its duration -/
example (duration : Int) : ∃ x, exBuild .seven = some x ∧ ∃ s', Sys.run Trumania.exEnv Trumania.exFmt ["logs"]
    (SetOrder.dedup String) 1 [x.1] duration false ⟨x.2, [([], .dir)]⟩ = .ok () s' := by
  obtain ⟨⟨ops, c'⟩, h1, h2⟩ := Option.map_eq_some_iff.1 exLiked
  refine ⟨_, h1, ?_⟩
  rw [exBuild] at h1
  split at h1
  · rename_i c hc
    split at h1
    · rename_i hb
      cases h1
      refine C132_hello_runs (env := Trumania.exEnv) rfl (by decide) exUsual (fun _ => gives_uniform rfl) (by decide) hc hb
        (fun _ q a hq ha i x hx => ?_) _ _ 0 duration _ ⟨by decide +kernel, by simp [At]⟩ (by simp [At]) (by simp)
        (by simp [At]) (by simp [DepthBelow, At]) (by omega) (.inr (by simp [Absent, At]))
      have h3 := List.all_eq_true.1 (List.all_eq_true.1 h2 q (List.mem_of_getElem? hq)) _ ha
      have h4 : a.table.all (fun y => match y.2 with
        | .scalar (.num v) => decide (0 < v)
        | _ => false) = true := by simpa using h3
      simpa using List.all_eq_true.1 h4 _ hx
    · cases h1
  · cases h1

/-- the same parts, except that nobody is popular -/
def exUnliked : Parts (AnyGen Nat) := { exParts with popularity := fun _ => .constant (.num 0) }

/-- **C132** Popularities must be positive: the circus of step 7 where they are all 0 is built, but its first step raises
as the first person has two friends, between whom it cannot choose. -/
theorem C132_unpopular_raises : (match Circus.new Rng.counter "hello" 1234 0 (3600 * nsPerSec) with
    | .ok c => match Step.seven.build Trumania.exEnv exParams exUnliked exFmt c with
      | .ok ops c' => some (Snd.play Trumania.exEnv [ops] [some 0] c'.world).isSome
      | .error _ _ => none
    | .error _ => none) = some false := by decide +kernel

end Hello
end Trumania
