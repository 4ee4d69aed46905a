import Verif.Proofs.CdrBuild
import Verif.Props.Cdr
import Verif.Props.Msisdn
import Verif.Props.Snd

/-!
# Property C115: the circus of test_cdr.py when it is built
-/

namespace Trumania
namespace Cdr
open Spec World Circus
variable {σ γ : Type} {env : Env σ γ}

theorem new_stage {name : String} {seed start step : Int} {c : Circus σ γ}
    (h : Circus.new env.R name seed start step = .ok c) : Stage env [] [] [] c.world := by
  rw [Circus.new] at h
  obtain ⟨⟨x, s⟩, -, h⟩ := bind_eq_ok.1 h
  cases h
  exact ⟨.nil, rfl, rfl, by simp, by simp [World.stories]⟩

theorem stage_stock {R : List (List (Val × Val))} {P : List Population} {S : List (String × String)} {w : World σ γ}
    (h : Stage env R P S w) {i : Nat} {L : List (Val × Val)} (hL : R[i]? = some L) :
    (∃ r, w.rels[i]? = some r ∧ Relationship.Reachable env.R r) ∧ ∀ o, (stockAt o w i).Perm L := by
  obtain ⟨r, hr, hf⟩ := forall₂_at' h.rels hL
  refine ⟨⟨r, hr, hf.1⟩, fun o => ?_⟩
  rw [stockAt, hr]
  exact hf.2 o

theorem operatorPairs_mine {ids : List Val} {opss : List (List Val)} {mapping : List (Val × Val)}
    (h : operatorPairs ids opss = .ok mapping) (hn : ids.Nodup) {k : Nat} {a : Val} {ops : List Val}
    (ha : ids[k]? = some a) (ho : opss[k]? = some ops) :
    (mapping.filter fun x => decide (x.1 = a)).map Prod.snd = ops := by
  rw [operatorPairs] at h
  split at h
  · cases h
    rename_i hl
    clear hl
    have other : ∀ (ids : List Val) (opss : List (List Val)), a ∉ ids →
        (((ids.zip opss).flatMap fun x => x.2.map fun o => (x.1, o)).filter fun x => decide (x.1 = a)) = [] := by
      intro ids opss hna
      rw [List.filter_eq_nil_iff]
      intro x hx e
      obtain ⟨y, hy, hx⟩ := List.mem_flatMap.1 hx
      obtain ⟨z, -, rfl⟩ := List.mem_map.1 hx
      have := of_decide_eq_true e
      subst this
      exact hna (List.of_mem_zip hy).1
    induction ids generalizing opss k with
    | nil => simp at ha
    | cons x ids ih =>
      cases opss with
      | nil => simp at ho
      | cons y opss =>
        rw [List.nodup_cons] at hn
        rw [List.zip_cons_cons, List.flatMap_cons, List.filter_append, List.map_append]
        cases k with
        | zero =>
          cases ha
          cases ho
          rw [other ids opss hn.1, List.filter_eq_self.2 (by simp)]
          simp [Function.comp_def]
        | succ k =>
          have hx : x ≠ a := fun e => hn.1 (e ▸ List.mem_of_getElem? ha)
          rw [ih hn.2 ha ho, List.filter_eq_nil_iff.2 (by simp [hx]), List.map_nil, List.nil_append]
  · cases h

theorem operatorPairs_owners {ids : List Val} {opss : List (List Val)} {mapping : List (Val × Val)}
    (h : operatorPairs ids opss = .ok mapping) : opss.length = ids.length ∧ ∀ x ∈ mapping, x.1 ∈ ids := by
  rw [operatorPairs] at h
  split at h
  · rename_i hl
    cases h
    refine ⟨hl, fun x hx => ?_⟩
    obtain ⟨y, hy, hx⟩ := List.mem_flatMap.1 hx
    obtain ⟨z, -, rfl⟩ := List.mem_map.1 hx
    exact (List.of_mem_zip hy).1
  · cases h

theorem erNetwork_mem {ids : List Val} {edges : List (Nat × Nat)} {pairs : List (Val × Val)} (hn : ids.Nodup)
    (h : erNetwork ids edges = .ok pairs) :
    ∀ x ∈ pairs, x.1 ∈ ids ∧ x.2 ∈ ids ∧ ((∀ e ∈ edges, e.1 ≠ e.2) → x.1 ≠ x.2) := by
  rw [erNetwork, mapM_ok_iff] at h
  intro x hx
  obtain ⟨k, hk⟩ := List.mem_iff_getElem?.1 hx
  obtain ⟨e, he, hx⟩ := forall₂_at' h hk
  simp only [bind_eq_ok] at hx
  obtain ⟨a, h1, b, h2, h3⟩ := hx
  cases h3
  rw [nth] at h1 h2
  split at h1 <;> cases h1
  split at h2 <;> cases h2
  rename_i e1 _ e2
  refine ⟨List.mem_of_getElem? e1, List.mem_of_getElem? e2, fun hl heq => hl e (List.mem_of_getElem? he) ?_⟩
  exact (List.getElem?_inj (List.getElem?_eq_some_iff.1 e1).1 hn).1 (e1.trans (by simp only at heq; rw [heq, e2]))

theorem zip_filter {α β δ : Type} [DecidableEq α] (m : List (α × β)) (l : List δ) (hl : l.length = m.length) (a : α) :
    ∃ T : List ((α × β) × δ), (∀ x ∈ T, x ∈ m.zip l) ∧
      (((m.map Prod.fst).zip l).filter fun x => decide (x.1 = a)).map Prod.snd = T.map Prod.snd ∧
      (m.filter fun x => decide (x.1 = a)).map Prod.snd = T.map fun x => x.1.2 := by
  refine ⟨(m.zip l).filter fun x => decide (x.1.1 = a), fun x hx => (List.mem_filter.1 hx).1, ?_, ?_⟩
  · rw [List.zip_map_left, List.filter_map, List.map_map]
    rfl
  · have : m = (m.zip l).map Prod.fst := (List.map_fst_zip (by omega)).symm
    conv_lhs => rw [this, List.filter_map, List.map_map]
    rfl

/-- **C115** The constructor of the scenario, when it succeeds, leaves a circus where the six stories can play, in
which each SIM has one owner, an operator drawn for this owner, a number and 1000 on its account, and in which
friends, agents and possible cells are those of members. -/
theorem C115_built {p : Params} {g : Parts γ} {fmt : Int → Cell} {name : String} {seed start step : Int}
    {c c' : Circus σ γ} {chains : List (List (Op (World σ γ)))}
    (hnew : Circus.new env.R name seed start step = .ok c) (hbuild : build env p g fmt c = .ok chains c') :
    ∃ cast subs sims cells, chains = cast.chains env fmt ∧ cast.Distinct ∧ Plays env cast c'.world ∧
      Opening env p g cast c'.world subs sims cells := by
  obtain ⟨cast, sd, subs, sims, mapping, ags, pls, frs, cellsPop, hch, ho⟩ := build_opened (new_stage hnew) hbuild
  obtain ⟨hcast, hst, ho1, ho2, ho3, ⟨y1, y2, y3, hloc, ⟨ah, hah, hh1, hh2⟩, b1, b2⟩, hop, hlen, hag, hpl, ⟨sd', pairs, her, hfr⟩, ao, aa, am, ac, ae, L, r0, r1, cities, nums, hao, haa,
    ham, hnums, hnums', hac, hac', hs⟩ := ho
  obtain ⟨g1, g2, g3, g4, g5, g6, g7, g8⟩ := hcast
  have r0' := stage_stock hs (i := 0) rfl
  have r1' := stage_stock hs (i := 1) rfl
  have r3' := stage_stock hs (i := 3) rfl
  have r4' := stage_stock hs (i := 4) rfl
  have p0 := (congrArg (·[0]?) hs.pops).trans (List.getElem?_eq_getElem (by simp))
  simp only [List.getElem_cons_zero, List.getElem_cons_succ] at p0
  have p1 := (congrArg (·[1]?) hs.pops).trans (List.getElem?_eq_getElem (by simp))
  simp only [List.getElem_cons_zero, List.getElem_cons_succ] at p1
  have p2 := (congrArg (·[2]?) hs.pops).trans (List.getElem?_eq_getElem (by simp))
  simp only [List.getElem_cons_zero, List.getElem_cons_succ] at p2
  have wf0 := hs.wf _ (List.mem_of_getElem? (i := 0) rfl)
  have wf1 := hs.wf _ (List.mem_of_getElem? (i := 1) rfl)
  have wf2 := hs.wf _ (List.mem_of_getElem? (i := 2) rfl)
  have mo : attributeOf (⟨sims, mapping.length, [("OPERATOR", ao), ("MAIN_ACCT", aa), ("MSISDN", am)], r1⟩ : Population)
      "OPERATOR" ao := List.mem_of_getElem? (i := 0) rfl
  have ma : attributeOf (⟨sims, mapping.length, [("OPERATOR", ao), ("MAIN_ACCT", aa), ("MSISDN", am)], r1⟩ : Population)
      "MAIN_ACCT" aa := List.mem_of_getElem? (i := 1) rfl
  have mm : attributeOf (⟨sims, mapping.length, [("OPERATOR", ao), ("MAIN_ACCT", aa), ("MSISDN", am)], r1⟩ : Population)
      "MSISDN" am := List.mem_of_getElem? (i := 2) rfl
  have mc : attributeOf (⟨subs, p.nSubscribers, [("CELL", ac), ("EXCITABILITY", ae)], r0⟩ : Population) "CELL" ac :=
    List.mem_of_getElem? (i := 0) rfl
  refine ⟨cast, subs, sims, cellsPop.ids, hch, ⟨by rw [g1, g2]; decide, by rw [g4, g1]; decide, by rw [g4, g2]; decide,
    by rw [g8, g5]; decide⟩, ⟨hs.pops ▸ hs.wf, hs.ids, ?_, ?_, ?_, ?_⟩, ?_⟩
  · have := congrArg (List.map Prod.snd) hs.stories
    rw [List.map_map] at this
    exact this
  · intro i hi
    simp only [Cast.rels, g5, g6, g7, g8, List.mem_cons, List.not_mem_nil, or_false] at hi
    rcases hi with rfl | rfl | rfl | rfl
    · exact r4'.1
    · exact r0'.1
    · exact r1'.1
    · exact r3'.1
  · exact ⟨_, ao, am, aa, g2 ▸ p1, mo, mm, ma⟩
  · exact ⟨_, ac, g1 ▸ p0, mc⟩
  · refine ⟨⟨_, _, _, g1 ▸ p0, g2 ▸ p1, g3 ▸ p2, rfl, rfl, rfl⟩, wf0.ids, wf1.ids, ?_, ?_, ?_, ?_, ?_, ?_, ⟨sd, ?_, ?_⟩, ?_,
      ?_, ?_, ?_, ?_, ?_, ⟨hst.2.1, hst.2.2.2.1, hst.2.2.2.2.1, hst.2.2.2.2.2⟩, ho1, ho2, ho3, g3.trans g4.symm,
      y1, y2, y3, hloc, b1, b2, fun a ha => ?_, fun a v hv => ?_⟩
    · intro s v
      rw [g2, valueOf_iff p1 wf1 ma, haa]
    · intro s hsim
      obtain ⟨v, hv⟩ := (ham s).1 hsim
      exact ⟨v, g2 ▸ (valueOf_iff p1 wf1 mm).2 hv⟩
    · have key : ∀ s v, ValueOf c'.world cast.t.sims "MSISDN" s v ↔ (s, v) ∈ sims.zip nums := fun s v => by
        rw [g2, valueOf_iff p1 wf1 mm, Holds, hnums']
      rcases hnums with h0 | ⟨sd2, n, a', hn⟩
      · exact ⟨nums, 0, .inl h0, key⟩
      · exact ⟨nums, sd2, .inr ⟨n, a', hn⟩, key⟩
    · intro s hsim
      obtain ⟨k, hk, rfl⟩ := List.getElem_of_mem hsim
      refine ⟨(mapping[k]'(hlen ▸ hk)).2, g2 ▸ (valueOf_iff p1 wf1 mo).2 ?_⟩
      rw [Holds, hao, List.mem_iff_getElem]
      exact ⟨k, by simp [hk, ← hlen], by simp⟩
    · intro o
      rw [g5]
      refine ((r0'.2 o).map _).trans ?_
      rw [List.map_snd_zip (by simp [hlen])]
    · intro o x hx
      rw [g5, (r0'.2 o).mem_iff] at hx
      obtain ⟨y, hy, e⟩ := List.mem_map.1 (List.of_mem_zip hx).1
      exact e ▸ (operatorPairs_owners hop).2 y hy
    · exact (operatorPairs_owners hop).1
    · intro k a ops ha hops o
      obtain ⟨T, hT, e1, e2⟩ := zip_filter mapping sims hlen a
      rw [operatorPairs_mine hop wf0.ids ha hops] at e2
      refine ⟨T.map Prod.snd, ?_, ?_⟩
      · rw [g5, ← e1]
        exact ((r0'.2 o).filter _).map _
      · rw [e2, List.forall₂_map_left_iff, List.forall₂_map_right_iff]
        refine List.forall₂_same.2 fun x hx => g2 ▸ (valueOf_iff p1 wf1 mo).2 ?_
        rw [Holds, hao, List.zip_map_right]
        have := hT x hx
        obtain ⟨k, hk⟩ := List.mem_iff_getElem?.1 this
        rw [List.getElem?_zip_eq_some] at hk
        exact List.mem_map.2 ⟨(x.2, x.1), List.mem_iff_getElem?.2 ⟨k, List.getElem?_zip_eq_some.2 ⟨hk.2, hk.1⟩⟩, rfl⟩
    · intro o x hx
      rw [g8, (r4'.2 o).mem_iff, hfr] at hx
      rw [g8, (r4'.2 o).mem_iff, hfr]
      have hm := erNetwork_mem wf0.ids her
      rcases List.mem_append.1 hx with hx | hx
      · exact ⟨(hm x hx).1, (hm x hx).2.1, List.mem_append_right _ (List.mem_map.2 ⟨x, hx, rfl⟩)⟩
      · obtain ⟨y, hy, rfl⟩ := List.mem_map.1 hx
        exact ⟨(hm y hy).2.1, (hm y hy).1, List.mem_append_left _ hy⟩
    · intro hloop o x hx
      rw [g8, (r4'.2 o).mem_iff, hfr] at hx
      have hm := erNetwork_mem wf0.ids her
      rcases List.mem_append.1 hx with hx | hx
      · exact (hm x hx).2.2 (hloop _ _ _)
      · obtain ⟨y, hy, rfl⟩ := List.mem_map.1 hx
        exact ((hm y hy).2.2 (hloop _ _ _)).symm
    · intro o x hx
      rw [g6, (r1'.2 o).mem_iff] at hx
      exact hag x hx
    · intro o x hx
      rw [g7, (r3'.2 o).mem_iff] at hx
      exact hpl x hx
    · intro a v hv
      rw [g1, valueOf_iff p0 wf0 mc] at hv
      obtain ⟨x, rfl, hx⟩ := hac a v hv
      exact ⟨x, rfl, fun o => by rw [g7, (r3'.2 o).mem_iff]; exact hx⟩
    · intro hne o x hx
      rw [g7, (r3'.2 o).mem_iff] at hx
      obtain ⟨v, hv⟩ := hac' hne x.1 x.2 hx
      exact ⟨v, g1 ▸ (valueOf_iff p0 wf0 mc).2 hv⟩
    · obtain ⟨v, hv⟩ := hh1 a ha
      exact ⟨v, g3 ▸ (valueOf_iff p2 wf2 hah).2 hv⟩
    · rw [g3, valueOf_iff p2 wf2 hah] at hv
      exact hh2 a v hv

/-! ### Consequences, for the runs of the scenario -/

/-- **C115** The numbers of test_cdr.py:197-202 come from one call of a `MSISDNGenerator`: no two SIMs have the same one. -/
theorem C115_numbers_unique {R : Rng σ} {env : Env σ (AnyGen σ)} (hsem : env.sem = AnyGen.sem R) {p : Params}
    {g : Parts (AnyGen σ)} {c : Cast} {w : World σ (AnyGen σ)} {subs sims cells : List Val}
    (ho : Opening env p g c w subs sims cells) {cc : String} {pref : List String} {len : Nat} (hpref : pref.Nodup)
    (hg : ∀ seed, g.msisdns seed = .msisdn (MsisdnGen.new cc pref len) seed) {s s' : Val} {v : Cell}
    (h : ValueOf w c.t.sims "MSISDN" s v) (h' : ValueOf w c.t.sims "MSISDN" s' v) : s = s' := by
  obtain ⟨nums, seed, hn, hk⟩ := ho.dealt
  rw [hk] at h h'
  have hnd : nums.Nodup := by
    rcases hn with rfl | ⟨n, g', hn⟩
    · exact List.nodup_nil
    · rw [hsem, hg] at hn
      replace hn : AnyGen.generate R (.msisdn (MsisdnGen.new cc pref len) seed) n = .ok (nums, g') := hn
      rw [AnyGen.generate] at hn
      split at hn
      · obtain ⟨⟨v, m⟩, hv, hn⟩ := bind_eq_ok.1 hn
        cases hn
        have := C07_msisdn_unique R cc pref len hpref [(R.seed seed, n.num.toNat)] [v] m
          (by simp [MsisdnGen.generates, hv, bind, Except.bind, pure, Except.pure])
        have hvn : v.Nodup := by simpa using this.1
        exact hvn.map fun a b e => by
          injection e with e
          injection e
      · cases hn
  obtain ⟨i, hi⟩ := List.mem_iff_getElem?.1 h
  obtain ⟨j, hj⟩ := List.mem_iff_getElem?.1 h'
  rw [List.getElem?_zip_eq_some] at hi hj
  have : i = j := (List.getElem?_inj (List.getElem?_eq_some_iff.1 hi.2).1 hnd).1 (hi.2.trans hj.2.symm)
  subst this
  exact Option.some.inj (hi.1.symm.trans hj.1)

/-- **C115** At any moment of any run of the scenario, the account of a SIM is 1000, less the prices of the calls and
messages that the logs tell of its number, plus the top-ups that they tell of it. -/
theorem C115_balance {R : Rng σ} {env : Env σ (AnyGen σ)} (hsem : env.sem = AnyGen.sem R) {p : Params}
    {g : Parts (AnyGen σ)} {fmt : Int → Cell} {name : String} {seed start step : Int}
    {c c' : Circus σ (AnyGen σ)} {chains : List (List (Op (World σ (AnyGen σ))))}
    (hnew : Circus.new env.R name seed start step = .ok c) (hbuild : build env p g fmt c = .ok chains c')
    {cc : String} {pref : List String} {len : Nat} (hpref : pref.Nodup)
    (hg : ∀ seed, g.msisdns seed = .msisdn (MsisdnGen.new cc pref len) seed)
    {w' : World σ (AnyGen σ)} {evs : List (Int × Event)} (h : Played env chains c'.world evs w') :
    ∃ cast : Cast, chains = cast.chains env fmt ∧
      ∀ s m, ValueOf w' cast.t.sims "MSISDN" s (.scalar m) → Priced m (emitted evs) →
        ValueOf w' cast.t.sims "MAIN_ACCT" s (.num (1000 - spent m (emitted evs) + toppedUp m (emitted evs))) := by
  obtain ⟨cast, subs, sims, cells, rfl, hd, hw, ho⟩ := C115_built hnew hbuild
  refine ⟨cast, rfl, fun s m hm hp => ?_⟩
  have hm' := ((C111_constant hd h hw env.orders).1 "MSISDN" (by decide) s _).1 hm
  refine C110_ledger hd h hw hm' (fun s' hs' => C115_numbers_unique hsem ho hpref hg hs' hm') ((ho.accounts s _).2 ⟨?_, rfl⟩) hp
  obtain ⟨nums, sd, -, hk⟩ := ho.dealt
  exact (List.of_mem_zip ((hk s _).1 hm')).1

/-- **C115** In any run of the scenario with subscribers that have names, each record of a call or of a message is of
two different subscribers who are friends, one of which calls with a SIM of its own, and no member of the run is
ever called by two in the same execution. -/
theorem C115_records {p : Params} {g : Parts γ} {fmt : Int → Cell} {name : String} {seed start step : Int}
    {c c' : Circus σ γ} {chains : List (List (Op (World σ γ)))}
    (hnew : Circus.new env.R name seed start step = .ok c) (hbuild : build env p g fmt c = .ok chains c')
    (hloop : ∀ n q seed, ∀ e ∈ g.friends n q seed, e.1 ≠ e.2)
    {w' : World σ γ} {evs : List (Int × Event)} (h : Played env chains c'.world evs w') (o : Orders) :
    ∃ cast : Cast, ∃ subs sims cells, chains = cast.chains env fmt ∧
      Opening env p g cast c'.world subs sims cells ∧ (.na ∉ subs →
      ∀ t ∈ tablesOf "voice_cdr" (emitted evs) ++ tablesOf "sms_cdr" (emitted evs), ∀ r ∈ t.rows,
        ∃ u a b simA simB, Record o u cast.t t r a b simA simB ∧ a ∈ subs ∧ b ∈ subs ∧ a ≠ b ∧ simA ∈ sims ∧
          simB ∈ sims ∧ simA ≠ simB ∧ ∃ e1 e2, evs = e1 ++ e2 ∧ Played env chains c'.world e1 u) := by
  obtain ⟨cast, subs, sims, cells, rfl, hd, hw, ho⟩ := C115_built hnew hbuild
  refine ⟨cast, subs, sims, cells, rfl, ho, fun hna t ht r hr => ?_⟩
  obtain ⟨k1, k2⟩ := C111_run hd h hw o fun s hs => hna (ho.owners o _ hs)
  have fin : ∀ {P : Frame → Row → Prop}, (∃ e1 e2 u, evs = e1 ++ e2 ∧
      Played env (cast.chains env fmt) c'.world e1 u ∧ Talks o u cast.t P t) →
      ∃ u a b simA simB, Record o u cast.t t r a b simA simB ∧ a ∈ subs ∧ b ∈ subs ∧ a ≠ b ∧ simA ∈ sims ∧
          simB ∈ sims ∧ simA ≠ simB ∧ ∃ e1 e2, evs = e1 ++ e2 ∧ Played env (cast.chains env fmt) c'.world e1 u := by
    rintro P ⟨e1, e2, u, he, hp, ht⟩
    obtain ⟨a, b, simA, simB, hrec⟩ := ht.records r hr
    have hc := (C111_constant hd hp hw o).2
    have f := (hc cast.t.friends (by simp [Cast.rels])).mem_iff.1 hrec.friends
    have oa := (hc cast.t.simsOf (by simp [Cast.rels])).mem_iff.1 hrec.ownA
    have ob := (hc cast.t.simsOf (by simp [Cast.rels])).mem_iff.1 hrec.ownB
    have hab := ho.loops hloop o _ f
    refine ⟨u, a, b, simA, simB, hrec, (ho.friends o _ f).1, (ho.friends o _ f).2.1, hab, ?_, ?_, ?_, e1, e2, he, hp⟩
    · exact (ho.owned o).mem_iff.1 (List.mem_map_of_mem (f := Prod.snd) oa)
    · exact (ho.owned o).mem_iff.1 (List.mem_map_of_mem (f := Prod.snd) ob)
    · rintro rfl
      have hn := (ho.owned o).nodup_iff.2 ho.simsOnce
      exact hab (Prod.mk.inj (List.inj_on_of_nodup_map hn oa ob rfl)).1
  rcases List.mem_append.1 ht with ht | ht
  · exact fin (k1 t ht)
  · exact fin (k2 t ht)

end Cdr
end Trumania
