import Verif.Spec.Blog
import Verif.Proofs.HelloRun
import Verif.Proofs.DbLoad

/-! Helper lemmas: what one execution of the story of the examples of examples/datacamp-blogpost does. -/

namespace Trumania
namespace Blog
open Spec World Cdr
open Shop (tabs)
variable {σ : Type} {env : Env σ (AnyGen σ)} {w w' w0 w1 : World σ (AnyGen σ)} {data out f f' : Frame} {ls : List Logs}
  {l : Logs} {sc : Scene} {S : List Nat} {ids ids' : List Val} {i : Val} {d len : Int} {g g' : String → Cell}

theorem relationsAt_of {o : Orders} {k : Nat} {r : Relationship σ} (h : w.rels[k]? = some r) :
    relationsAt o w k = r.get_relations o := by rw [relationsAt, h]

theorem stockAt_relations (o : Orders) (w : World σ (AnyGen σ)) (k : Nat) :
    stockAt o w k = (relationsAt o w k).map fun x => (x.1, x.2.1) := by
  rw [stockAt, relationsAt]
  cases w.rels[k]? <;> rfl

/-- the same populations, clock, and relations -/
structure Still (env : Env σ (AnyGen σ)) (S : List Nat) (w w' : World σ (AnyGen σ)) : Prop where
  pops : w'.pops = w.pops
  ok : StocksOk env S w → StocksOk env S w'
  same : StocksOk env S w → ∀ o, ∀ k ∈ S, (relationsAt o w' k).Perm (relationsAt o w k)
  date : w'.clock.current = w.clock.current
  step : w'.clock.step = w.clock.step

theorem Still.refl : Still env S w w := ⟨rfl, id, fun _ _ _ _ => .refl _, rfl, rfl⟩

theorem Still.trans (h1 : Still env S w w1) (h2 : Still env S w1 w') : Still env S w w' :=
  ⟨h2.pops.trans h1.pops, fun h => h2.ok (h1.ok h), fun h o k hk => (h2.same (h1.ok h) o k hk).trans (h1.same h o k hk),
    h2.date.trans h1.date, h2.step.trans h1.step⟩

theorem Still.of_eq (h1 : w'.pops = w.pops) (h2 : w'.rels = w.rels) (h3 : w'.clock.current = w.clock.current)
    (h4 : w'.clock.step = w.clock.step) : Still env S w w' :=
  ⟨h1, fun h i hi => by rw [h2]; exact h i hi, fun _ o k _ => by rw [relationsAt, relationsAt, h2], h3, h4⟩

theorem Still.held (h : Still env S w w') (hok : StocksOk env S w) {k : Nat} (hk : k ∈ S) (o : Orders) (i : Val) :
    held o w' k i = held o w k i := by
  rw [Spec.held, Spec.held, stockAt_relations, stockAt_relations]
  exact ((h.same hok o k hk).map _).countP_eq _

/-- `select_one` as the scripts use it: for each row, a relation whose weight is not 0, if there is any -/
theorem select_of {k : Nat} {of name : String} (hr : Rect data) (hn : data.index.Nodup) (hname : name ∉ data.cols)
    (hok : StocksOk env S w) (hk : k ∈ S)
    (h : Ops.selectOne env k of name false false false none data w = .ok (out, l) w') :
    l = [] ∧ Grows [name] data out ∧ Still env S w w' ∧ out.index = data.index ∧
    ∀ i ∈ out.index, ∃ t, valueAt out i name = .scalar t ∧
      ((∀ o, ∃ wt, (idIn (valueAt data i of), t, wt) ∈ relationsAt o w k) ∨
        t = .na ∧ ∀ o, held o w k (idIn (valueAt data i of)) = 0) ∧
      ∀ o, t ≠ .na → 2 ≤ held o w k (idIn (valueAt data i of)) →
        ∃ wt, wt ≠ 0 ∧ (idIn (valueAt data i of), t, wt) ∈ relationsAt o w k := by
  obtain ⟨r, hr0, hreach⟩ := hok k hk
  obtain ⟨rfl, gr, s1, i1, -⟩ := Hello.select_kept hr hn hname hok hk h
  have hlt := (List.getElem?_eq_some_iff.1 hr0).1
  refine ⟨rfl, gr, ⟨s1.pops, s1.ok, fun hok o j hj => ?_, s1.date, s1.step⟩, by rw [i1 env.orders]; simp, fun i hi => ?_⟩
  · obtain ⟨-, -, r2, -, e2, -, -, -, -, -, -, h4, -⟩ := C92_select_one hn hr0 hreach o h
    by_cases hjk : k = j
    · subst hjk
      rw [relationsAt_of hr0, relationsAt_of (r := r2) (by rw [e2]; exact List.getElem?_set_self hlt)]
      exact h4 rfl
    · rw [relationsAt, relationsAt, e2]
      simp only [List.getElem?_set_ne hjk]
      exact .refl _
  · obtain ⟨t, ht, hc0⟩ := (grows_selectOne hr hn hname hr0 hreach env.orders h).2.2.2.1 i hi
    have hall : ∀ o, ((∃ wt, (idIn (valueAt data i of), t, wt) ∈ r.get_relations o) ∨
        (t = .na ∧ ¬ Has (r.get_relations o) (idIn (valueAt data i of)))) := by
      intro o
      obtain ⟨t', ht', hc⟩ := (grows_selectOne hr hn hname hr0 hreach o h).2.2.2.1 i hi
      rw [ht] at ht'
      cases ht'
      exact hc
    have hperm : ∀ o o', (r.get_relations o).Perm (r.get_relations o') := fun o o' => r.get_relations_env_perm o o'
    refine ⟨t, ht, ?_, fun o hna htwo => ?_⟩
    · by_cases hh : Has (r.get_relations env.orders) (idIn (valueAt data i of))
      · refine .inl fun o => ?_
        rw [relationsAt_of hr0]
        rcases hall o with h1 | ⟨-, h1⟩
        · exact h1
        · obtain ⟨t', wt', hm⟩ := hh
          exact absurd ⟨t', wt', (hperm _ _).mem_iff.1 hm⟩ h1
      · rcases hc0 with ⟨wt, hm⟩ | ⟨h1, -⟩
        · exact absurd ⟨t, wt, hm⟩ hh
        · refine .inr ⟨h1, fun o => Nat.eq_zero_of_not_pos fun hp => hh ?_⟩
          obtain ⟨t', wt', hm⟩ := (Hello.has_stock (o := o) hr0).2 hp
          exact ⟨t', wt', (hperm _ _).mem_iff.1 hm⟩
    · have htwo' : 2 ≤ (tosOf (r.get_relations o) (idIn (valueAt data i of))).length := by
        rw [Spec.held, stockAt_of hr0, List.countP_map, List.countP_eq_length_filter] at htwo
        rw [tosOf, List.length_map]
        exact htwo
      obtain ⟨wt, wt', h4, h5, h6⟩ := C92_zero_weight hr hn hname hr0 hreach o h i hi t hna ht htwo'
      have h5 : some wt = some wt' := h5
      cases h5
      exact ⟨wt, h6, by rw [relationsAt_of hr0]; exact h4⟩

/-- values drawn by a generator -/
theorem drawn_of {r : GenRef} {name : String} (hr : Rect data) (hn : data.index.Nodup) (hname : name ∉ data.cols)
    (ho : Ops.randomValues env r name none data w = .ok (out, l) w') :
    l = [] ∧ Grows [name] data out ∧ out.index = data.index ∧ Still env S w w' ∧
      ∃ values n, World.generate env r n w = .ok values w' ∧ ∀ i ∈ out.index, valueAt out i name ∈ values := by
  obtain ⟨-, g2, i2⟩ := grows_adder (env := env) (.randomValues _ _) hr hn hname ho
  obtain ⟨rfl, values, ad, e⟩ := C91_random_values hn hr hname ho
  have hrest := (call_sameRest e).2
  refine ⟨rfl, g2, i2, .of_eq hrest.pops hrest.rels hrest.date hrest.step, values, _, e, fun i hi => ?_⟩
  rw [← Shop.listIn_added hn ad]
  exact List.mem_map_of_mem hi

/-- what the operations of the story do with the records of the persons `ids'` -/
structure Spoke (env : Env σ (AnyGen σ)) (sc : Scene) (ids ids' : List Val) (w w' : World σ (AnyGen σ)) (ls : List Logs)
    (t : Frame) : Prop where
  logged : tabs ls sc.post.logId = [t]
  other : ∀ id, id ≠ sc.post.logId → tabs ls id = []
  still : Still env sc.post.rels w w'
  cols : t.cols = fields
  nodup : t.index.Nodup
  index : t.index = ids'
  each : ∀ i ∈ ids', Told sc ids w w.clock.current w.clock.step i (valueAt t i)

theorem spoken (hsem : env.sem = AnyGen.sem env.R) (hw : Ready env sc ids w) (hs : Still env sc.post.rels w w1)
    (hb : ∀ {r : GenRef} {x : AnyGen σ}, Began env w r x → Began env w1 r x)
    (hrect : Rect f) (hn : f.index.Nodup) (hcols : f.cols = ["PERSON_ID"]) (hi : f.index = ids')
    (hsub : ∀ i ∈ ids', i ∈ ids) (hid : ∀ i ∈ ids', valueAt f i "PERSON_ID" = .scalar i)
    (hr : Runs (Ops.setOperations env 0 (operations env sc.fmt ⟨0, 0, if sc.post = .six then 1 else 0, sc.choice⟩ sc.post))
      f w1 out ls w') :
    ∃ t, Spoke env sc ids ids' w w' ls t := by
  obtain ⟨f1, w2, l1, ls1, h1, hk1, rfl⟩ := Snd.cons_runs hr
  obtain ⟨f2, w3, l2, ls2, h2, hk2, rfl⟩ := Snd.cons_runs hk1
  obtain ⟨f3, w4, l3, ls3, h3, hk3, rfl⟩ := Snd.cons_runs hk2
  obtain ⟨f4, w5, l4, ls4, h4, hk4, rfl⟩ := Snd.cons_runs hk3
  obtain ⟨f5, w6, l5, ls5, h5, hk5, rfl⟩ := Snd.cons_runs hk4
  obtain ⟨f6, w7, l6, ls6, h6, hk6, rfl⟩ := Snd.cons_runs hk5
  obtain ⟨f7, w8, l7, ls7, h7, hk7, rfl⟩ := Snd.cons_runs hk6
  cases hk7
  have began_kept : ∀ {op : Op (World σ (AnyGen σ))} {a b : Frame} {u v : World σ (AnyGen σ)} {l : Logs},
      BuiltIn env (fun _ => True) (fun _ => True) op → op a u = .ok (b, l) v →
      ∀ (r : GenRef) (x : AnyGen σ), Began env u r x → Began env v r x := fun ho e _ _ b => began_op ho e b
  -- the date
  have hn1 : "TIME" ∉ f.cols := by rw [hcols]; decide
  obtain ⟨-, g1, i1⟩ := grows_adder (env := env) (.timestamp _ _) hrect hn hn1 h1
  obtain ⟨rfl, secs, state, -, -, e1, hlt, ad⟩ := C91_random_timestamps hn hrect hn1 (by rw [hs.step]; exact hw.clock) h1
  have s1 : Still env sc.post.rels w1 w2 := .of_eq (by rw [e1]) (by rw [e1]) (by rw [e1]) (by rw [e1])
  have b1 := began_kept (.adder (.timestamp _ _)) h1
  have c1 : f1.cols = ["PERSON_ID", "TIME"] := by rw [g1.cols, hcols]; rfl
  have t1 : ∀ i ∈ ids', ∃ k : Nat, (k : Int) * 1000000000 < w.clock.step ∧
      valueAt f1 i "TIME" = sc.fmt (w.clock.current + (k : Int) * 1000000000) := by
    intro i hii
    have hv := Shop.listIn_added hn ad
    have hm' : valueAt f1 i "TIME" ∈ secs.map fun (k : Nat) => sc.fmt (w1.clock.current + (k : Int) * 1000000000) := by
      rw [← hv]
      exact List.mem_map_of_mem (by rw [i1, hi]; exact hii)
    obtain ⟨k, hk, e'⟩ := List.mem_map.1 hm'
    exact ⟨k, by rw [← hs.step]; exact hlt k hk, by rw [← e', hs.date]⟩
  have j1 : f1.index = ids' := i1.trans hi
  have a1 : Still env sc.post.rels w w2 := hs.trans s1
  -- the message
  have v1 : ∀ i ∈ ids', valueAt f1 i "PERSON_ID" = .scalar i := fun i hii => by
    rw [g1.kept i (j1 ▸ hii) _ (by rw [hcols]; decide)]
    exact hid i hii
  have hmsg : l2 = [] ∧ Grows ["MESSAGE"] f1 f2 ∧ f2.index = ids' ∧ Still env sc.post.rels w2 w3 ∧
      (∀ (r : GenRef) (x : AnyGen σ), Began env w2 r x → Began env w3 r x) ∧
      ∀ i ∈ ids', (sc.post = .three → valueAt f2 i "MESSAGE" = .str "hello world") ∧
        (sc.post ≠ .three → ∃ t, valueAt f2 i "MESSAGE" = .scalar t ∧ ∀ o, (∃ wt, (i, t, wt) ∈ relationsAt o w 0) ∧
          (t ≠ .na → ∃ wt, wt ≠ 0 ∧ (i, t, wt) ∈ relationsAt o w 0)) := by
    have hn2 : "MESSAGE" ∉ f1.cols := by rw [c1]; decide
    have htxt : sc.post ≠ .three → quote env 0 f1 w2 = .ok (f2, l2) w3 := by
      intro h3
      revert h2
      cases hp : sc.post with
      | three => exact absurd hp h3
      | _ => exact id
    by_cases h3 : sc.post = .three
    · rw [h3] at h2
      obtain ⟨rfl, g2, i2, s2, values, n, e, hv⟩ := drawn_of (S := sc.post.rels) g1.rect g1.nodup hn2 h2
      have b2 := began_kept (.adder (.randomValues _ _)) h2
      refine ⟨rfl, g2, i2.trans j1, s2, b2, fun i hii => ⟨fun _ => ?_, fun h => absurd h3 h⟩⟩
      rw [World.generate, World.call] at e
      obtain ⟨e, -⟩ := Act.pure_eq_ok.1 e
      have := hv i (by rw [i2, j1]; exact hii)
      rw [← e] at this
      exact List.eq_of_mem_replicate this
    · have h0 : 0 ∈ sc.post.rels := by
        revert h3
        cases sc.post <;> decide
      obtain ⟨rfl, g2, s2, i2, hv⟩ := select_of g1.rect g1.nodup hn2 (a1.ok hw.stocks) h0 (htxt h3)
      have b2 := began_kept (.selectOne _ _ _ _ _ _ _) (htxt h3)
      refine ⟨rfl, g2, i2.trans j1, s2, b2, fun i hii => ⟨fun h => absurd h h3, fun _ => ?_⟩⟩
      obtain ⟨t, ht, hc, hz⟩ := hv i (by rw [i2, j1]; exact hii)
      rw [v1 i hii] at hc hz
      have htwo : ∀ o, 2 ≤ held o w2 0 i := fun o => by
        rw [a1.held hw.stocks h0]
        exact hw.quotes h0 o i (hsub i hii)
      refine ⟨t, ht, fun o => ⟨?_, fun hna => ?_⟩⟩
      · rcases hc with hc | ⟨-, hc⟩
        · obtain ⟨wt, hm⟩ := hc o
          exact ⟨wt, (a1.same hw.stocks o 0 h0).mem_iff.1 hm⟩
        · have := htwo o
          have h0' : held o w2 0 i = 0 := hc o
          omega
      · obtain ⟨wt, hz0, hm⟩ := hz o hna (htwo o)
        exact ⟨wt, hz0, (a1.same hw.stocks o 0 h0).mem_iff.1 hm⟩
  obtain ⟨rfl, g2, j2, s2, b2, m2⟩ := hmsg
  have a2 := a1.trans s2
  have c2 : f2.cols = ["PERSON_ID", "TIME", "MESSAGE"] := by rw [g2.cols, c1]; rfl
  have v2 : ∀ i ∈ ids', valueAt f2 i "PERSON_ID" = .scalar i := fun i hii => by
    rw [g2.kept i (j2 ▸ hii) _ (by rw [c1]; decide)]
    exact v1 i hii
  -- the other person
  have hoth : l3 = [] ∧ Grows ["OTHER_PERSON"] f2 f3 ∧ f3.index = ids' ∧ Still env sc.post.rels w3 w4 ∧
      (∀ (r : GenRef) (x : AnyGen σ), Began env w3 r x → Began env w4 r x) ∧
      ∀ i ∈ ids', ∃ t, valueAt f3 i "OTHER_PERSON" = .scalar t ∧
        (t ∈ ids → sc.post = .six → ∀ o, ∃ wt, (i, t, wt) ∈ relationsAt o w 1) := by
    have hn3 : "OTHER_PERSON" ∉ f2.cols := by rw [c2]; decide
    have hany : sc.post ≠ .six → anyone env sc.choice f2 w3 = .ok (f3, l3) w4 := by
      intro h3
      revert h3
      cases hp : sc.post with
      | six => exact fun h => absurd rfl h
      | _ => rw [hp] at h3; exact fun _ => h3
    by_cases h6 : sc.post = .six
    · have hfr : friend env 1 f2 w3 = .ok (f3, l3) w4 := by
        rw [h6] at h3
        exact h3
      have h0 : 1 ∈ sc.post.rels := by rw [h6]; decide
      obtain ⟨rfl, g3, s3, i3, hv⟩ := select_of g2.rect g2.nodup hn3 (a2.ok hw.stocks) h0 hfr
      have b3 := began_kept (.selectOne _ _ _ _ _ _ _) hfr
      refine ⟨rfl, g3, i3.trans j2, s3, b3, fun i hii => ?_⟩
      obtain ⟨t, ht, hc, -⟩ := hv i (by rw [i3, j2]; exact hii)
      rw [v2 i hii] at hc
      refine ⟨t, ht, fun hti _ o => ?_⟩
      rcases hc with hc | ⟨rfl, -⟩
      · obtain ⟨wt, hm⟩ := hc o
        exact ⟨wt, (a2.same hw.stocks o 1 h0).mem_iff.1 hm⟩
      · exact absurd hti hw.named
    · obtain ⟨rfl, g3, i3, s3, values, n, e, hv⟩ := drawn_of (S := sc.post.rels) g2.rect g2.nodup hn3 (hany h6)
      have b3 := began_kept (.adder (.randomValues _ _)) (hany h6)
      refine ⟨rfl, g3, i3.trans j2, s3, b3, fun i hii => ?_⟩
      obtain ⟨x, hx⟩ := hw.anyone h6
      obtain ⟨t, -, ht⟩ := Shop.began_choice hsem (b2 _ _ (b1 _ _ (hb hx))) e _ (hv i (by rw [i3, j2]; exact hii))
      exact ⟨t, ht, fun _ h => absurd h h6⟩
  obtain ⟨rfl, g3, j3, s3, b3, m3⟩ := hoth
  have a3 := a2.trans s3
  have c3 : f3.cols = ["PERSON_ID", "TIME", "MESSAGE", "OTHER_PERSON"] := by rw [g3.cols, c2]; rfl
  have v3 : ∀ i ∈ ids', valueAt f3 i "PERSON_ID" = .scalar i := fun i hii => by
    rw [g3.kept i (j3 ▸ hii) _ (by rw [c2]; decide)]
    exact v2 i hii
  -- the names
  obtain ⟨rfl, rfl, g4, i4, p4, hp4, m4⟩ := grows_lookup_of (by rw [a3.pops]; exact hw.wf) g3.rect g3.nodup (by decide)
    (by rw [c3]; decide) h4
  have c4 : f4.cols = ["PERSON_ID", "TIME", "MESSAGE", "OTHER_PERSON", "EMITTER_NAME"] := by rw [g4.cols, c3]; rfl
  have j4 : f4.index = ids' := i4.trans j3
  obtain ⟨rfl, rfl, g5, i5, p5, hp5, m5⟩ := grows_lookup_of (by rw [a3.pops]; exact hw.wf) g4.rect g4.nodup (by decide)
    (by rw [c4]; decide) h5
  have c5 : f5.cols = fields := by rw [g5.cols, c4]; rfl
  have j5 : f5.index = ids' := i5.trans j4
  -- the end
  obtain ⟨rfl, rfl, rfl⟩ := Shop.logged_all h6
  obtain ⟨rfl, rfl, r7, p7⟩ := Shop.back_kept h7
  have hdate : (w'.clock.current, w'.clock.step) = (w7.clock.current, w7.clock.step) := by
    have := builtIn_date (F := fun _ => True) (Z := fun _ => True) (.effect (.maybeBackToDefault 0)) out w7 (env := env)
    rw [Act.after_ok h7] at this
    exact this
  refine ⟨out, ?_, fun id hid => ?_, a3.trans (.of_eq p7 r7 (congrArg Prod.fst hdate) (congrArg Prod.snd hdate)), c5,
    g5.nodup, j5, fun i hii => ?_⟩
  · show List.filterMap (fun x => Dict.get? x sc.post.logId) _ = _
    simp [List.filterMap_cons, Dict.get?]
  · show List.filterMap _ _ = _
    simp [Dict.get?, Ne.symm hid]
  · have k5 : ∀ c ∈ ["PERSON_ID", "TIME", "MESSAGE", "OTHER_PERSON", "EMITTER_NAME"], valueAt out i c = valueAt f4 i c :=
      fun c hc => g5.kept i (j5 ▸ hii) c (by rw [c4]; exact hc)
    have k4 : ∀ c ∈ ["PERSON_ID", "TIME", "MESSAGE", "OTHER_PERSON"], valueAt f4 i c = valueAt f3 i c :=
      fun c hc => g4.kept i (j4 ▸ hii) c (by rw [c3]; exact hc)
    have k3 : ∀ c ∈ ["PERSON_ID", "TIME", "MESSAGE"], valueAt f3 i c = valueAt f2 i c :=
      fun c hc => g3.kept i (j3 ▸ hii) c (by rw [c2]; exact hc)
    have k2 : ∀ c ∈ ["PERSON_ID", "TIME"], valueAt f2 i c = valueAt f1 i c :=
      fun c hc => g2.kept i (j2 ▸ hii) c (by rw [c1]; exact hc)
    obtain ⟨m21, m22⟩ := m2 i hii
    obtain ⟨t, ht, m3⟩ := m3 i hii
    have eq : ∀ p, w7.pops[0]? = some p → w.pops[0]? = some p := fun p h => by rw [← a3.pops]; exact h
    refine ⟨?_, ?_, fun h => ?_, fun h => ?_, ?_, ?_⟩
    · rw [k5 _ (by decide), k4 _ (by decide)]
      exact v3 i hii
    · rw [k5 _ (by decide), k4 _ (by decide), k3 _ (by decide), k2 _ (by decide)]
      exact t1 i hii
    · rw [k5 _ (by decide), k4 _ (by decide), k3 _ (by decide)]
      exact m21 h
    · rw [k5 _ (by decide), k4 _ (by decide), k3 _ (by decide)]
      exact m22 h
    · obtain ⟨a, ha, hl⟩ := m5 i (by rw [i5, j4]; exact hii) ("NAME", "RECEIVER_NAME") (by simp)
      rw [k4 _ (by decide), ht] at hl
      have hold : Holds a t (valueAt out i "RECEIVER_NAME") := hl
      obtain ⟨p, hp, hpi, hnames⟩ := hw.persons
      have hp5' := eq _ hp5
      rw [hp] at hp5'
      cases hp5'
      have hti := hnames a ha t _ hold
      exact ⟨t, hti, by rw [k5 _ (by decide), k4 _ (by decide)]; exact ht, ⟨_, a, eq _ hp5, ha, hold⟩, m3 hti⟩
    · obtain ⟨a, ha, hl⟩ := m4 i (by rw [i4, j3]; exact hii) ("NAME", "EMITTER_NAME") (by simp)
      rw [v3 i hii] at hl
      rw [k5 _ (by decide)]
      exact ⟨p4, a, eq _ hp4, ha, hl⟩

theorem blog_builtIn {F Z : Nat → Prop} {j : Nat} {ops : List (Op (World σ (AnyGen σ)))}
    (hi : (sc.chains env)[j]? = some ops) : j = 0 ∧ ∀ op ∈ ops, BuiltIn env F Z op := by
  match j with
  | j + 1 => cases hi
  | 0 =>
    cases hi
    refine ⟨rfl, fun op hop => ?_⟩
    rw [Ops.setOperations] at hop
    rcases List.mem_append.1 hop with hop | hop
    · have key : ∀ x st, ∀ op ∈ operations env sc.fmt x st, BuiltIn env F Z op := by
        intro x st
        have h1 : BuiltIn env F Z (timestamp env sc.fmt) := .adder (.timestamp _ _)
        have h2 : BuiltIn env F Z (message env x st) := by
          cases st
          · exact .adder (.randomValues _ _)
          all_goals exact .selectOne _ _ _ _ _ _ _
        have h3 : BuiltIn env F Z (other env x st) := by
          cases st
          case six => exact .selectOne _ _ _ _ _ _ _
          all_goals exact .adder (.randomValues _ _)
        have h4 : BuiltIn env F Z (emitter x.person) := .lookup _ _ _
        have h5 : BuiltIn env F Z (receiver x.person) := .lookup _ _ _
        have h6 : BuiltIn env F Z (Ops.fieldLogger st.logId [] []) := .fieldLogger _ _ _
        simp only [operations, List.forall_mem_cons, h1, h2, h3, h4, h5, h6, true_and]
        simp
      exact key _ sc.post op hop
    · obtain rfl := List.mem_singleton.1 hop
      exact .effect (.maybeBackToDefault _)

/-- who acts: those whose timer is 0, in the order of the story -/
theorem acting_of {s : Story σ} (hs : w.stories[0]? = some s) (hn : s.ids.Nodup) :
    (actingRows s).map (·.idx) = speakers w s.ids := by
  have ht : ∀ r ∈ s.timer, timerIn w 0 r.id = some r.remaining := by
    intro r hr
    rw [timerIn, hs, Option.bind_some, Story.timerOf_eq, Story.row?_of_mem hn hr]
    rfl
  rw [speakers, actingRows, Story.ids]
  generalize s.timer = rows at ht
  induction rows with
  | nil => rfl
  | cons a l ih =>
    have ih := ih fun r hr => ht r (by simp [hr])
    rw [List.filterMap_cons, List.map_cons, List.filter_cons, ht a (by simp), ← ih]
    by_cases h0 : a.remaining = some 0 <;> simp [h0]

/-- what an execution does and logs -/
structure Did (env : Env σ (AnyGen σ)) (sc : Scene) (ids : List Val) (w w' : World σ (AnyGen σ)) (logs : Logs) :
    Prop where
  still : Still env sc.post.rels w w'
  other : ∀ id, id ≠ sc.post.logId → tablesOf id logs = []
  spoke : speakers w ids = [] ∧ logs = [] ∨ speakers w ids ≠ [] ∧ ∃ t, tablesOf sc.post.logId logs = [t] ∧ t.cols = fields ∧
    t.index = speakers w ids ∧ ∀ i ∈ t.index, Told sc ids w w.clock.current w.clock.step i (valueAt t i)

theorem did (hsem : env.sem = AnyGen.sem env.R) (hw : Ready env sc ids w) {j : Nat}
    {ops : List (Op (World σ (AnyGen σ)))} {logs : Logs} (hi : (sc.chains env)[j]? = some ops)
    (h : World.execute env ops j w = .ok logs w') : Did env sc ids w w' logs := by
  obtain ⟨rfl, -⟩ := blog_builtIn hi (F := fun _ => True) (Z := fun _ => True)
  cases hi
  obtain ⟨s, w1, s1, s', hs, ha, -, -, hrest, -⟩ := execute_ok h
  have hlast : Still env sc.post.rels w1 w' := .of_eq hrest.pops hrest.rels hrest.date hrest.step
  obtain ⟨x, hx, hf, hids⟩ := hw.story
  rw [hs] at hx
  cases hx
  have hn : s.ids.Nodup := by
    obtain ⟨p, hp, e, -⟩ := hw.persons
    rw [hids, ← e]
    exact (hw.wf p (List.mem_of_getElem? hp)).ids
  have hact : (actingRows s).map (·.idx) = speakers w ids := by rw [← hids]; exact acting_of hs hn
  obtain ⟨s3, hs3, hafter⟩ := ha
  rw [hs] at hs3
  cases hs3
  rcases hafter with ⟨hno, rfl, rfl⟩ | ⟨hsome, last, h5⟩
  · refine ⟨Still.trans (w1 := started w 0 s) (.of_eq rfl rfl rfl rfl) hlast, by simp [tablesOf], .inl ⟨?_, rfl⟩⟩
    rw [← hact, hno]
    rfl
  obtain ⟨hwf, ls, hr, hl⟩ := (chain_sequential env.logSet _ _ last _ w1).1 logs h5
  obtain ⟨n1, n2, n3⟩ := acting_names hn hf
  obtain ⟨t, ht⟩ := spoken (ids' := speakers w ids) (w1 := started w 0 s) hsem hw (.of_eq rfl rfl rfl rfl) (fun b => b) n1 n2
    (by rw [← hf]) hact (fun i hi => List.mem_of_mem_filter hi) (fun i hi => n3 i (by rw [← hact] at hi; exact hi)) hr
  have hT : ∀ id, tablesOf id logs = tabs ls id :=
    tables_of_one (fun id => by rw [tablesOf_dict hwf, hl]) ht.logged ht.other
  refine ⟨ht.still.trans hlast, fun id hid => by rw [hT]; exact ht.other id hid,
    .inr ⟨fun e => hsome ?_, t, by rw [hT]; exact ht.logged, ht.cols, ht.index, fun i hi => ht.each i (ht.index ▸ hi)⟩⟩
  rw [← hact, List.map_eq_nil_iff] at e
  exact e

theorem Ready.same (hw : Ready env sc ids w) (hs : Still env sc.post.rels w w')
    (hf : ∃ x, w'.stories[0]? = some x ∧ x.idField = "PERSON_ID" ∧ x.ids = ids)
    (hb : ∀ {r : GenRef} {g : AnyGen σ}, Began env w r g → Began env w' r g) : Ready env sc ids w' := by
  refine ⟨by rw [hs.pops]; exact hw.wf, by rw [hs.pops]; exact hw.persons, hw.named, hf, hs.ok hw.stocks,
    fun h => ?_, fun h0 o i hi => ?_, by rw [hs.step]; exact hw.clock⟩
  · obtain ⟨x, hx⟩ := hw.anyone h
    exact ⟨x, hb hx⟩
  · rw [hs.held hw.stocks h0]
    exact hw.quotes h0 o i hi

theorem exec_ready (hsem : env.sem = AnyGen.sem env.R) (hw : Ready env sc ids w) {j : Nat}
    {ops : List (Op (World σ (AnyGen σ)))} {logs : Logs} (hi : (sc.chains env)[j]? = some ops)
    (h : World.execute env ops j w = .ok logs w') : Ready env sc ids w' := by
  obtain ⟨rfl, hb⟩ := blog_builtIn hi (F := (· ≠ 0)) (Z := (· ≠ 0))
  have hd := did hsem hw hi h
  refine hw.same hd.still ?_ fun hg => ?_
  · have hsame : List.Forall₂ World.SameStatic w.stories w'.stories := execute_sameStories hb h
    obtain ⟨x, hx, h1, h2⟩ := hw.story
    obtain ⟨y, hy, e⟩ := forall₂_at hsame hx
    exact ⟨y, hy, by rw [e.1]; exact h1, e.2.trans h2⟩
  · obtain ⟨j, hj, hb'⟩ := began_iff.1 hg
    exact began_iff.2 ⟨j, hj, execute_gens (beganAt_inv j).toGenKept
      (fun op hop => builtIn_respects (beganAt_inv j).toGenKept (hb op hop)) h hb'⟩

theorem tick_ready (hw : Ready env sc ids w) : Ready env sc ids (nextStep env w) := by
  obtain ⟨h1, h2, h3, h4, h5, h6, h7, h8⟩ := hw
  refine ⟨h1, h2, h3, h4, h5, fun h => ?_, h7, h8⟩
  obtain ⟨x, hg⟩ := h6 h
  obtain ⟨j, hj, hb⟩ := began_iff.1 hg
  exact ⟨x, began_iff.2 ⟨j, hj, (beganAt_inv j).tick _ hb⟩⟩

end Blog
end Trumania
