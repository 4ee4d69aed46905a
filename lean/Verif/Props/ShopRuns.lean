import Verif.Props.Reports
import Verif.Props.ShopEarly
import Verif.Props.Music

/-!
# C132: the steps of examples/tutorial/example2.py run to the end
-/

namespace Trumania
open Spec World
variable {σ : Type} {env : Env σ (AnyGen σ)} {w w' : World σ (AnyGen σ)}

/-! ### Generators -/

/-- a sequential generator always gives ids -/
theorem gives_seq (hsem : env.sem = AnyGen.sem env.R) (a : SeqGen) : AlwaysGives env (.seq a) (IdIn fun _ => True) := by
  intro x hx n
  have hk : ∃ a', x = .seq a' := by
    induction hx with
    | refl => exact ⟨a, rfl⟩
    | generate _ e ih =>
      obtain ⟨s', rfl⟩ := ih
      rw [hsem] at e
      change AnyGen.generate env.R (.seq s') _ = _ at e
      rw [AnyGen.generate] at e
      cases e
      exact ⟨_, rfl⟩
    | observe _ e ih =>
      obtain ⟨s', rfl⟩ := ih
      rw [hsem] at e
      cases e
    | tick _ ih =>
      obtain ⟨s', rfl⟩ := ih
      rw [hsem]
      exact ⟨_, rfl⟩
  obtain ⟨s, rfl⟩ := hk
  rw [hsem]
  have e : AnyGen.generate env.R (.seq s) (n : Rat) =
      .ok ((s.generate n).1.map Cell.str, .seq (s.generate n).2) := rfl
  refine ⟨_, _, e, AnyGen.C74_as_many_as_asked e, fun c hc => ?_⟩
  obtain ⟨t, -, rfl⟩ := List.mem_map.1 hc
  exact ⟨_, rfl, trivial⟩

/-- a trigger always gives truth values -/
theorem answers_trigger (hsem : env.sem = AnyGen.sem env.R) {m : List Rat → List Rat}
    (hm : ∀ l, (m l).length = l.length) (s : σ) :
    AlwaysAnswers env (.trigger m s) (fun c => ∃ q, c = .scalar (.num q)) IsBool := by
  intro x hx obs ho
  have hk : ∃ s', x = .trigger m s' := by
    induction hx with
    | refl => exact ⟨s, rfl⟩
    | generate _ e ih =>
      obtain ⟨s', rfl⟩ := ih
      rw [hsem] at e
      cases e
    | observe _ e ih =>
      obtain ⟨s', rfl⟩ := ih
      rw [hsem] at e
      change AnyGen.observe env.R (.trigger m s') _ = _ at e
      rw [AnyGen.observe] at e
      obtain ⟨qs, -, e⟩ := bind_eq_ok.1 e
      obtain ⟨⟨bs, s''⟩, -, e⟩ := bind_eq_ok.1 e
      cases e
      exact ⟨_, rfl⟩
    | tick _ ih =>
      obtain ⟨s', rfl⟩ := ih
      rw [hsem]
      exact ⟨_, rfl⟩
  obtain ⟨s', rfl⟩ := hk
  rw [hsem]
  obtain ⟨qs, h1, h2⟩ := asNums ho
  have ht : ∃ bs s'', triggerGenerate env.R m s' qs = .ok (bs, s'') :=
    ⟨_, _, if_pos (by rw [hm, env.R.uniform_length])⟩
  obtain ⟨bs, s'', ht⟩ := ht
  have e : AnyGen.observe env.R (.trigger m s') obs = .ok (bs.map Cell.bool, .trigger m s'') :=
    bind_eq_ok.2 ⟨qs, h1, bind_eq_ok.2 ⟨_, ht, rfl⟩⟩
  refine ⟨_, _, e, AnyGen.C75_one_per_observation e, fun c hc => ?_⟩
  obtain ⟨b, -, rfl⟩ := List.mem_map.1 hc
  exact ⟨b, rfl⟩

/-! ### The declarations of a circus that was just built -/

/-- what a circus has, if its relationships lose items, and its stories have no other state than the default one -/
def plainSignature (env : Env σ (AnyGen σ)) (w : World σ (AnyGen σ)) : Sig (AnyGen σ) :=
  ⟨w.clock.step, w.gens.map (Descends env), w.rels.map fun _ => ⟨fun _ => True, fun _ => False, true⟩, w.pops.map attKinds,
    w.stories.map fun s => ⟨(· ∈ s.ids), fun st => st = .str "default" ∨ False, s.idField⟩⟩

/-- the timers of the story never raise -/
def Timed (env : Env σ (AnyGen σ)) (w : World σ (AnyGen σ)) (r : GenRef) : Prop :=
  (∃ x, r = .constant (.num x)) ∨
    ∃ g, Began env w r g ∧ AlwaysAnswers env g (fun c => ∃ q, c = .scalar (.num q)) IsAmount

theorem plain_fits (hr : ∀ r ∈ w.rels, Relationship.Reachable env.R r ∧ ∀ o, ∀ x ∈ r.get_relations o, x.2.2 = 1)
    (hs : ∀ s ∈ w.stories, s.ids.Nodup ∧ (Begins s s.ids fun _ => False) ∧ Timed env w s.timerGen) :
    Fits env (plainSignature env w) w := by
  refine ⟨rfl, (gens_fit rfl).1, (gens_fit rfl).2, ?_, ?_, ?_⟩
  · change List.Forall₂ _ (w.rels.map _) _
    rw [List.forall₂_map_left_iff, List.forall₂_same]
    intro r hm
    obtain ⟨h1, h2⟩ := hr r hm
    have hw : ∀ x ∈ r.get_relations env.orders, 0 < x.2.2 := fun x hx => by
      rw [h2 _ x hx]
      exact one_pos
    exact ⟨h1, fun x hx => ⟨(hw x hx).le, trivial⟩, fun x hx => ⟨x, hx, rfl, hw x hx⟩, fun _ => hw, fun _ h => h.elim⟩
  · change List.Forall₂ _ (w.pops.map _) _
    rw [List.forall₂_map_left_iff, List.forall₂_same]
    exact fun p _ => pop_fits p
  · change List.Forall₂ _ (w.stories.map _) _
    rw [List.forall₂_map_left_iff, List.forall₂_same]
    intro s hm
    obtain ⟨h1, h2, h3⟩ := hs s hm
    rcases h3 with ⟨x, h3⟩ | ⟨g, h3, h4⟩
    · exact story_fits h1 h2 (.inl ⟨_, h3⟩) (by rw [h3]; exact .constSeries (.inr ⟨x, rfl⟩))
    · obtain ⟨j, hj, -⟩ := began_iff.1 h3
      exact story_fits h1 h2 (.inr ⟨j, hj⟩) (genOk_answers rfl h3 h4)

namespace Shop
open Circus Cdr
variable {c c' : Circus σ (AnyGen σ)} {q q1 : Population} {S : Sig (AnyGen σ)} {day time : Int → Cell}

/-! ### The operations -/

/-- the names that stories need are known -/
def Labelled (names : List String) (q : Population) : Prop :=
  Population.WF q ∧ ∀ name ∈ names, ∃ x, attributeOf q name x ∧ ∀ i ∈ q.ids, Knows x i

theorem Labelled.kind {names : List String} (h : Labelled names q) {name : String} (hn : name ∈ names) :
    ∃ k, (attKinds q).get? name = some k ∧ ∀ i ∈ q.ids, k.known i := by
  obtain ⟨x, h1, h2⟩ := h.2 name hn
  refine ⟨_, attKinds_get h.1 h1, fun i hi => ?_⟩
  obtain ⟨c, hc⟩ := h2 i hi
  exact List.mem_map_of_mem (f := Prod.fst) hc

/-- what the signature has for the points of sale -/
structure Counter (S : Sig (AnyGen σ)) (q : Population) (own : Nat) : Prop where
  rel : S.rels[0]? = some ⟨fun _ => True, fun _ => False, true⟩
  pop : S.pops[0]? = some (attKinds q)
  names : Labelled ["NAME", "COMPANY"] q
  step : nsPerSec ≤ S.step
  story : S.stories[own]? = some ⟨(· ∈ q.ids), fun st => st = .str "default" ∨ False, "POS_ID"⟩

theorem report_safe {own : Nat} (h : Counter S q own) :
    SafeStory env S ⟨(· ∈ q.ids), fun st => st = .str "default" ∨ False, "POS_ID"⟩ (reportOps env day own 0) := by
  refine C101_set_operations h.story ?_
  exact ⟨_, .cons (.timestamp (P := fun _ => True) (fun _ => trivial) (fun _ => h.step) (by simp [Ctx.names]))
    (.cons (.neighbourhoodSize h.rel ⟨_, .head _, fun i _ _ h => ⟨i, h⟩⟩ (by simp [Ctx.names]))
    (.cons (.fieldLogger (by simp [Ctx.names])) .nil))⟩

theorem lookup_name {own : Nat} {Γ : Ctx} {name as : String} (h : Counter S q own) (hn : name ∈ ["NAME", "COMPANY"])
    {M : Val → Prop} (hi : Γ.Has M "POS_ID" fun _ => IdIn (· ∈ q.ids)) (hd : (Γ.names ++ [as]).Nodup) :
    Safe env S M Γ (Ops.lookup 0 "POS_ID" [(name, as)]) (Γ ++ [(as, fun _ => attValue (attKinds q) name)]) := by
  obtain ⟨k, e1, e2⟩ := h.names.kind hn
  obtain ⟨k', h1, h2⟩ := hi
  refine .lookup (P := attKinds q) h.pop ⟨k', h1, fun i c hm hc => ?_⟩ (fun x hx => ?_) hd
  · obtain ⟨v, hv, -⟩ := h2 i c hm hc
    exact ⟨v, hv⟩
  · obtain rfl : x = (name, as) := by simpa using hx
    refine ⟨k, e1, k', h1, fun i c hm hc => ?_⟩
    obtain ⟨v, hv, hv'⟩ := h2 i c hm hc
    exact ⟨v, hv, e2 v hv'⟩

theorem periodic_safe {own : Nat} {volumes items : GenRef} (h : Counter S q own) (hv : GenOk env S volumes .size IsWhole)
    (hi : GenOk env S items .size (IdIn fun _ => True)) :
    SafeStory env S ⟨(· ∈ q.ids), fun st => st = .str "default" ∨ False, "POS_ID"⟩
      (periodicOps env day own 0 0 volumes items) := by
  refine C101_set_operations h.story ?_
  exact ⟨_, .cons (.timestamp (P := fun _ => True) (fun _ => trivial) (fun _ => h.step) (by simp [Ctx.names]))
    (.cons (lookup_name h (by simp) ⟨_, .head _, fun i _ hi h => ⟨i, h, hi⟩⟩ (by simp [Ctx.names]))
    (.cons (.randomValues hv (by simp [Ctx.names]))
    (.cons (.randomValuesFromField (.bulkSeries hi (A := IsWhole) fun _ h => h) ⟨fun _ => IsWhole, by simp, fun _ _ _ h => h⟩
      (by simp [Ctx.names]))
    (.cons (.relAddGrouped h.rel ⟨_, .head _, fun i _ _ h => ⟨i, h⟩⟩ ⟨fun _ => ListOf fun _ => True, by simp, fun _ _ _ h => h⟩)
    (.cons (.fieldLogger (by simp [Ctx.names])) .nil)))))⟩

theorem combined_safe {own : Nat} {volumes items : GenRef} (h : Counter S q own) (hv : GenOk env S volumes .size IsWhole)
    (hi : GenOk env S items .size (IdIn fun _ => True)) :
    SafeStory env S ⟨(· ∈ q.ids), fun st => st = .str "default" ∨ False, "POS_ID"⟩
      (combinedOps env day own 0 0 volumes items) := by
  refine C101_set_operations h.story ?_
  exact ⟨_, .cons (.timestamp (P := fun _ => True) (fun _ => trivial) (fun _ => h.step) (by simp [Ctx.names]))
    (.cons (lookup_name h (by simp) ⟨_, .head _, fun i _ hi h => ⟨i, h, hi⟩⟩ (by simp [Ctx.names]))
    (.cons (.randomValues (.flatmapped hv (.bulkSamples hi fun _ h => h)) (by simp [Ctx.names]))
    (.cons (.relAddGrouped h.rel ⟨_, .head _, fun i _ _ h => ⟨i, h⟩⟩ ⟨fun _ => ListOf fun _ => True, by simp, fun _ _ _ h => h⟩)
    (.cons (.fieldLogger (by simp [Ctx.names])) .nil))))⟩

theorem restock_safe {own : Nat} {volumes items : GenRef} (h : Counter S q own) (hv : GenOk env S volumes .size IsWhole)
    (hi : GenOk env S items .size (IdIn fun _ => True)) :
    SafeStory env S ⟨(· ∈ q.ids), fun st => st = .str "default" ∨ False, "POS_ID"⟩
      (restockOps env time own 0 0 volumes items) := by
  refine C101_set_operations h.story ?_
  exact ⟨_, .cons (.timestamp (P := fun _ => True) (fun _ => trivial) (fun _ => h.step) (by simp [Ctx.names]))
    (.cons (lookup_name h (by simp) ⟨_, .head _, fun i _ hi h => ⟨i, h, hi⟩⟩ (by simp [Ctx.names]))
    (.cons (.neighbourhoodSize h.rel ⟨_, .head _, fun i _ _ h => ⟨i, h⟩⟩ (by simp [Ctx.names]))
    (.cons (.randomValues hv (by simp [Ctx.names]))
    (.cons (.randomValuesFromField (.bulkSeries hi (A := IsWhole) fun _ h => h) (by
        refine ⟨fun _ => IsWhole, ?_, fun _ _ _ h => h⟩
        simp) (by simp [Ctx.names]))
    (.cons (.relAddGrouped h.rel ⟨_, .head _, fun i _ _ h => ⟨i, h⟩⟩ ⟨fun _ => ListOf fun _ => True, by simp, fun _ _ _ h => h⟩)
    (.cons (.neighbourhoodSize h.rel ⟨_, .head _, fun i _ _ h => ⟨i, h⟩⟩ (by simp [Ctx.names]))
    (.cons (.fieldLogger (by simp [Ctx.names])) .nil)))))))⟩

/-- the purchases, with what `update_purchase_story` adds, if anything -/
theorem purchase_safe {own restocks : Nat} {choice : GenRef} (h : Counter S q restocks)
    (hrel : S.rels[1]? = some ⟨fun _ => True, fun _ => False, true⟩) (hpop : S.pops[1]? = some (attKinds q1))
    (hnames : Labelled ["FIRST_NAME", "LAST_NAME"] q1)
    (hstory : S.stories[own]? = some ⟨(· ∈ q1.ids), fun st => st = .str "default" ∨ False, "CUST_ID"⟩)
    (hc : GenOk env S choice .size (IdIn (· ∈ q.ids))) {more : List (Op (World σ (AnyGen σ)))}
    (hm : more = [] ∨ ∃ t, GenOk env S t (.series fun c => ∃ q, c = .scalar (.num q)) IsBool ∧
      more = triggerOps env restocks 0 t) :
    SafeStory env S ⟨(· ∈ q1.ids), fun st => st = .str "default" ∨ False, "CUST_ID"⟩
      (appendOperations (purchaseOps env own 1 0 0 1 choice) more) := by
  obtain ⟨k1, f1, f2⟩ := hnames.kind (name := "FIRST_NAME") (by simp)
  obtain ⟨k2, f3, f4⟩ := hnames.kind (name := "LAST_NAME") (by simp)
  have oNames : Safe env S (· ∈ q1.ids) [("CUST_ID", fun l c => c = .scalar l)]
      (Ops.lookup 1 "CUST_ID" [("FIRST_NAME", "BUYER_FIRST_NAME"), ("LAST_NAME", "BUYER_LAST_NAME")])
      [("CUST_ID", fun l c => c = .scalar l), ("BUYER_FIRST_NAME", fun _ => attValue (attKinds q1) "FIRST_NAME"),
        ("BUYER_LAST_NAME", fun _ => attValue (attKinds q1) "LAST_NAME")] := by
    refine .lookup (P := attKinds q1) hpop ⟨_, .head _, fun i _ _ h => ⟨i, h⟩⟩ (fun x hx => ?_) (by simp [Ctx.names])
    simp only [List.mem_cons, List.not_mem_nil, or_false] at hx
    rcases hx with rfl | rfl
    · exact ⟨k1, f1, _, .head _, fun i _ hi h => ⟨i, h, f2 i hi⟩⟩
    · exact ⟨k2, f3, _, .head _, fun i _ hi h => ⟨i, h, f4 i hi⟩⟩
  have start : ∀ {Γ : Ctx} {tail : List (Op (World σ (AnyGen σ)))},
      SafeOps env S (· ∈ q1.ids) [("CUST_ID", fun l c => c = .scalar l),
        ("BUYER_FIRST_NAME", fun _ => attValue (attKinds q1) "FIRST_NAME"),
        ("BUYER_LAST_NAME", fun _ => attValue (attKinds q1) "LAST_NAME"), ("POS_ID", fun _ => IdIn (· ∈ q.ids)),
        ("POS_NAME", fun _ => attValue (attKinds q) "COMPANY"), ("BOUGHT_ITEM_ID", fun _ => IdIn fun _ => True)] tail Γ →
      SafeOps env S (· ∈ q1.ids) [("CUST_ID", fun l c => c = .scalar l)] ([
        Ops.lookup 1 "CUST_ID" [("FIRST_NAME", "BUYER_FIRST_NAME"), ("LAST_NAME", "BUYER_LAST_NAME")],
        Ops.randomValues env choice "POS_ID" none, Ops.lookup 0 "POS_ID" [("COMPANY", "POS_NAME")],
        Ops.selectOne env 0 "POS_ID" "BOUGHT_ITEM_ID" true true true none, Ops.relAdd env 1 "CUST_ID" "BOUGHT_ITEM_ID",
        Ops.fieldLogger "purchases" [] [], Ops.maybeBackToDefault env own] ++ tail) Γ := by
    intro Γ tail ht
    exact .cons oNames
      (.cons (.randomValues hc (by simp [Ctx.names]))
      (.cons (lookup_name h (by simp) ⟨fun _ => IdIn (· ∈ q.ids), by simp, fun _ _ _ h => h⟩ (by simp [Ctx.names]))
      (.cons (.selectOne (d := true) h.rel (fun _ => ⟨rfl, fun _ h => h⟩) ⟨fun _ => IdIn (· ∈ q.ids), by simp, fun _ _ _ h => by
          obtain ⟨v, hv, -⟩ := h
          exact ⟨v, hv⟩⟩ (by simp) (by simp [Ctx.names]))
      (.cons (.relAdd hrel ⟨_, .head _, fun i _ _ h => ⟨i, h⟩⟩ ⟨fun _ => IdIn fun _ => True, by simp, fun _ _ _ h => h⟩)
      (.cons (.fieldLogger (by simp))
      (.cons (.maybeBackToDefault hstory fun _ h => h) ht))))))
  rcases hm with rfl | ⟨t, ht, rfl⟩
  · exact ⟨_, start .nil⟩
  · exact ⟨_, start (.cons (.neighbourhoodSize h.rel ⟨fun _ => IdIn (· ∈ q.ids), by simp, fun _ _ _ h => by
          obtain ⟨v, hv, -⟩ := h
          exact ⟨v, hv⟩⟩ (by simp [Ctx.names]))
      (.cons (.randomValuesFromField ht ⟨fun _ => IsWhole, by simp, fun _ _ _ ⟨n, h⟩ => ⟨_, h⟩⟩ (by simp [Ctx.names]))
      (.cons (.forceActNext h.story ⟨fun _ => IdIn (· ∈ q.ids), by simp, fun _ _ _ h => .inr h⟩ (by
        rintro c hc
        cases hc
        exact ⟨fun _ => IsBool, by simp, fun _ _ _ h => h⟩)) .nil)))⟩

/-! ### What is built -/

/-- the timers of the example never raise -/
def Parts.Timers (env : Env σ (AnyGen σ)) (g : Parts (AnyGen σ)) : Prop :=
  ∀ seed, AlwaysAnswers env (g.restockTimer seed) (fun c => ∃ q, c = .scalar (.num q)) IsAmount ∧
    AlwaysAnswers env (g.purchaseTimer seed) (fun c => ∃ q, c = .scalar (.num q)) IsAmount

/-- The stories of a circus that was just built: their members and the names of their ids. All the relations have the
weight 1. -/
structure Cast (env : Env σ (AnyGen σ)) (X : List (List Val × String)) (w : World σ (AnyGen σ)) : Prop where
  stories : List.Forall₂ (fun (x : List Val × String) s => (Begins s x.1 fun _ => False) ∧ s.idField = x.2 ∧ Timed env w s.timerGen) X w.stories
  ones : ∀ r ∈ w.rels, ∀ o, ∀ x ∈ r.get_relations o, x.2.2 = 1

theorem timed_after {n : Nat} {r : GenRef} (h : Timed env w r) (ha : After env n w w') : Timed env w' r :=
  h.imp_right fun ⟨g, h1, h2⟩ => ⟨g, ha.began h1, h2⟩

theorem ones_after {n : Nat} (ha : After env n w w') (h : ∀ r ∈ w.rels, ∀ o, ∀ x ∈ r.get_relations o, x.2.2 = 1) :
    ∀ r ∈ w'.rels, ∀ o, ∀ x ∈ r.get_relations o, x.2.2 = 1 := by
  obtain ⟨l, e, hl⟩ := ha.rels
  intro r hr o x hx
  rw [e] at hr
  rcases List.mem_append.1 hr with hr | hr
  · exact h r hr o x hx
  · rw [hl r hr o] at hx
    cases hx

theorem Cast.keep {X : List (List Val × String)} {n : Nat} (h : Cast env X w) (ha : After env n w w')
    (hl : w'.stories.length = w.stories.length) : Cast env X w' := by
  obtain ⟨l, e, -⟩ := ha.stories
  have : l = [] := by
    rw [e, List.length_append] at hl
    exact List.length_eq_zero_iff.1 (by omega)
  rw [this, List.append_nil] at e
  refine ⟨?_, ones_after ha h.ones⟩
  rw [e]
  exact h.stories.imp fun _ _ h => ⟨h.1, h.2.1, timed_after h.2.2 ha⟩

theorem Cast.add {X : List (List Val × String)} {n : Nat} {T : GenRef → Prop} {ids : List Val} {nm f : String}
    {S : List (String × String)} (h : Cast env X w) (ha : After env n w w') (hn : Anew w w' ids T)
    (hT : ∀ r, T r → Timed env w' r) (hS : w'.stories.map (fun s => (s.name, s.idField)) = S ++ [(nm, f)]) :
    Cast env (X ++ [(ids, f)]) w' := by
  obtain ⟨s, e, h1, h2⟩ := hn
  refine ⟨?_, ones_after ha h.ones⟩
  have hf : s.idField = f := by
    rw [e, List.map_append] at hS
    have := List.append_inj_right' hS rfl
    simp only [List.map_cons, List.map_nil, List.cons.injEq, Prod.mk.injEq, and_true] at this
    exact this.2
  rw [e]
  exact List.rel_append (h.stories.imp fun _ _ h => ⟨h.1, h.2.1, timed_after h.2.2 ha⟩) (.cons ⟨h1, hf, hT _ h2⟩ .nil)

variable {R : List (List (Val × Val))} {P : List Population} {N : List (String × String)} {D G : Dict String Nat}

theorem Cast.fits {X : List (List Val × String)} (h : Cast env X c.world) (hs : Site env R P N D G c) :
    Fits env (plainSignature env c.world) c.world ∧
      (plainSignature env c.world).stories = X.map fun x => ⟨(· ∈ x.1), fun st => st = .str "default" ∨ False, x.2⟩ := by
  refine ⟨plain_fits (fun r hr => ⟨?_, h.ones r hr⟩) fun s hm => ⟨hs.stage.ids s hm, ?_⟩, ?_⟩
  · obtain ⟨L, -, hf⟩ := forall₂_exists_right hs.stage.rels hr
    exact hf.1
  · obtain ⟨x, -, h1, -, h3⟩ := forall₂_exists_left h.stories hm
    exact ⟨h1.members ▸ h1, h3⟩
  · have key : ∀ {X : List (List Val × String)} {l : List (Story σ)},
        List.Forall₂ (fun (x : List Val × String) s => (Begins s x.1 fun _ => False) ∧ s.idField = x.2 ∧ Timed env c.world s.timerGen) X l →
        (l.map fun s => (⟨(· ∈ s.ids), fun st => st = .str "default" ∨ False, s.idField⟩ : StoryKind)) =
          X.map fun x => ⟨(· ∈ x.1), fun st => st = .str "default" ∨ False, x.2⟩ := by
      intro X l h
      induction h with
      | nil => rfl
      | cons h _ ih => rw [List.map_cons, List.map_cons, ih, h.1.members, h.2.1]
    exact key h.stories

theorem counter_of {L : List (Val × Val)} (hs : Site env (L :: R) (q :: P) N D G c) (hn : Labelled ["NAME", "COMPANY"] q)
    (hstep : nsPerSec ≤ c.world.clock.step) {own : Nat} {X : List (List Val × String)}
    (hX : (plainSignature env c.world).stories = X.map fun x => ⟨(· ∈ x.1), fun st => st = .str "default" ∨ False, x.2⟩)
    (ho : X[own]? = some (q.ids, "POS_ID")) : Counter (plainSignature env c.world) q own := by
  refine ⟨?_, ?_, hn, hstep, by rw [hX, List.getElem?_map, ho]; rfl⟩
  · change (c.world.rels.map _)[0]? = _
    have h1 := hs.stage.rels
    cases hr : c.world.rels with
    | nil => rw [hr] at h1; cases h1
    | cons r l => rfl
  · change (c.world.pops.map _)[0]? = _
    rw [hs.stage.pops]
    rfl

theorem purchases_built {L : List (Val × Val)} {ids : List Val} {n restocks own : Nat} {y1 y2 : Attribute}
    (hs : Site env [L, []] [q, ⟨ids, n, [("FIRST_NAME", y1), ("LAST_NAME", y2)], [("my_items", 1)]⟩] N D G c)
    (hk : ∀ x ∈ [y1, y2], ∀ i ∈ ids, Knows x i) (h : Counter (plainSignature env c.world) q restocks)
    {X : List (List Val × String)}
    (hX : (plainSignature env c.world).stories = X.map fun x => ⟨(· ∈ x.1), fun st => st = .str "default" ∨ False, x.2⟩)
    (ho : X[own]? = some (ids, "CUST_ID")) {choice : GenRef}
    (hc : GenOk env (plainSignature env c.world) choice .size (IdIn (· ∈ q.ids))) {more : List (Op (World σ (AnyGen σ)))}
    (hm : more = [] ∨ ∃ t, GenOk env (plainSignature env c.world) t (.series fun c => ∃ q, c = .scalar (.num q)) IsBool ∧
      more = triggerOps env restocks 0 t) :
    SafeStory env (plainSignature env c.world) ⟨(· ∈ ids), fun st => st = .str "default" ∨ False, "CUST_ID"⟩
      (appendOperations (purchaseOps env own 1 0 0 1 choice) more) := by
  refine purchase_safe (q1 := ⟨ids, n, [("FIRST_NAME", y1), ("LAST_NAME", y2)], [("my_items", 1)]⟩) h ?_ ?_
    ⟨hs.stage.wf _ (by simp), ?_⟩ ?_ hc hm
  · change (c.world.rels.map _)[1]? = _
    have h1 := hs.stage.rels.length_eq
    obtain ⟨r, r', e⟩ := List.length_eq_two.1 h1
    rw [e]
    rfl
  · change (c.world.pops.map _)[1]? = _
    rw [hs.stage.pops]
    rfl
  · intro name hname
    simp only [List.mem_cons, List.not_mem_nil, or_false] at hname
    rcases hname with rfl | rfl
    · exact ⟨y1, by simp [attributeOf], hk y1 (by simp)⟩
    · exact ⟨y2, by simp [attributeOf], hk y2 (by simp)⟩
  · rw [hX, List.getElem?_map, ho]
    rfl

theorem began_here {i : Nat} {g : AnyGen σ} (h : w.gens[i]? = some g) : Began env w (.ref i) g :=
  ⟨i, g, rfl, h, .refl⟩

/-- what is asked of the generators of the example: timers that are numbers, volumes that are numbers of items -/
structure Parts.Answer (env : Env σ (AnyGen σ)) (g : Parts (AnyGen σ)) : Prop where
  timers : g.Timers env
  volumes : ∀ seed, AlwaysGives env (g.volumes seed) IsWhole

theorem cast_new {name : String} {seed start step : Int} (h : Circus.new env.R name seed start step = .ok c) :
    Cast env [] c.world := by
  obtain ⟨s0, -, m0, -⟩ := new_site (env := env) h
  refine ⟨by rw [m0]; exact .nil, fun r hr => ?_⟩
  have h1 := s0.stage.rels
  cases hl : c.world.rels with
  | nil => rw [hl] at hr; cases hr
  | cons r l => rw [hl] at h1; cases h1

/-- the circus that a step builds is well-formed, and the operations of its stories are safe -/
theorem built_safe (hsem : env.sem = AnyGen.sem env.R) {p : Params} {g : Parts (AnyGen σ)} {b a : SeqGen}
    {vols : List Val} {f : Rat → Rat} (hu : g.Usual b a vols f) (hg : g.Answer env) {name : String} {seed start step : Int}
    (hstep : nsPerSec ≤ step) (hnew : Circus.new env.R name seed start step = .ok c) {st : Step}
    (hpos : st = .four ∨ st = .five → 0 < p.nPos) {chains : List (List (Op (World σ (AnyGen σ))))}
    (h : st.build env p g day time c = .ok chains c') :
    ∃ S, Fits env S c'.world ∧ S.step = step ∧ List.Forall₂ (SafeStory env S) S.stories chains := by
  have hb := hu.posIds
  have ha := hu.items
  obtain ⟨s0, l0, m0, d0, d0'⟩ := new_site (env := env) hnew
  have k0 := cast_new hnew
  refine ⟨plainSignature env c'.world, ?_⟩
  cases st with
  | one =>
    change step1 env p g day c = _ at h
    rw [step1] at h
    obtain ⟨u1, c1, h1, h⟩ := Act.bind_eq_ok.1 h
    obtain ⟨ops4, c4, h4, h⟩ := Act.bind_eq_ok.1 h
    obtain ⟨rfl, rfl⟩ := Act.pure_eq_ok.1 h
    obtain ⟨ids, x1, x2, x3, hids, s1, a1, hkn⟩ := createPos_site s0 l0 h1
    obtain ⟨rfl, s4, a4, n4, -⟩ := addReport_site rfl s1 h4
    have e : c4.world.clock.step = step := by rw [a4.clock.2, a1.clock.2, d0']
    have k1 := k0.keep a1 (by rw [m0, List.map_eq_nil_iff.1 s1.stage.stories])
    have k4 := k1.add a4 n4 (fun r h => .inl h) s4.stage.stories
    obtain ⟨hf, hX⟩ := k4.fits s4
    refine ⟨hf, e, ?_⟩
    rw [hX]
    refine .cons (report_safe (counter_of s4 ⟨s4.stage.wf _ (by simp), ?_⟩ (by rw [e]; exact hstep) hX rfl)) .nil
    intro name hname
    simp only [List.mem_cons, List.not_mem_nil, or_false] at hname
    rcases hname with rfl | rfl
    · exact ⟨x1, by simp [attributeOf], hkn x1 (by simp)⟩
    · exact ⟨x3, by simp [attributeOf], hkn x3 (by simp)⟩
  | two =>
    change step2 env p g day c = _ at h
    rw [step2] at h
    obtain ⟨u1, c1, h1, h⟩ := Act.bind_eq_ok.1 h
    obtain ⟨u2, c2, h2, h⟩ := Act.bind_eq_ok.1 h
    obtain ⟨ops4, c4, h4, h⟩ := Act.bind_eq_ok.1 h
    obtain ⟨rfl, rfl⟩ := Act.pure_eq_ok.1 h
    obtain ⟨q, arrays, hq, hids, ha1, ha2, s2, -, m2, -, ⟨z1, z2⟩, -, e2⟩ := stocked_site hsem hb ha hnew h1 h2
    have k2 : Cast env [] c2.world := ⟨by rw [m2]; exact .nil, z2⟩
    obtain ⟨rfl, s4, a4, n4, -⟩ := addReport_site hq s2 h4
    have e : c4.world.clock.step = step := by rw [a4.clock.2, e2]
    have k4 := k2.add a4 n4 (fun r h => .inl h) s4.stage.stories
    obtain ⟨hf, hX⟩ := k4.fits s4
    refine ⟨hf, e, ?_⟩
    rw [hX]
    exact .cons (report_safe (counter_of s4 ⟨s4.stage.wf _ (by simp), z1⟩ (by rw [e]; exact hstep) hX rfl)) .nil
  | three =>
    change step3 env p g day c = _ at h
    rw [step3] at h
    obtain ⟨u1, c1, h1, h⟩ := Act.bind_eq_ok.1 h
    obtain ⟨u2, c2, h2, h⟩ := Act.bind_eq_ok.1 h
    obtain ⟨ops3, c3, h3, h⟩ := Act.bind_eq_ok.1 h
    obtain ⟨ops4, c4, h4, h⟩ := Act.bind_eq_ok.1 h
    obtain ⟨rfl, rfl⟩ := Act.pure_eq_ok.1 h
    obtain ⟨q, arrays, hq, hids, ha1, ha2, s2, l2, m2, g2, ⟨z1, z2⟩, -, e2⟩ := stocked_site hsem hb ha hnew h1 h2
    have k2 : Cast env [] c2.world := ⟨by rw [m2]; exact .nil, z2⟩
    obtain ⟨rfl, s3, a3, n3, sd, b3⟩ := addPeriodic_site hq s2 l2 h3
    have k3 := k2.add (S := []) a3 n3 (fun r ⟨sd, h⟩ => .inr ⟨_, h, (hg.timers sd).1⟩) s3.stage.stories
    obtain ⟨rfl, s4, a4, n4, -⟩ := addReport_site hq s3 h4
    have k4 := k3.add a4 n4 (fun r h => .inl h) s4.stage.stories
    have a34 := a3.trans a4
    have e : c4.world.clock.step = step := by rw [a34.clock.2, e2]
    obtain ⟨hf, hX⟩ := k4.fits s4
    have hv := genOk_gives (S := plainSignature env c4.world) rfl (a4.began b3) (hg.volumes sd)
    have hi := genOk_gives (S := plainSignature env c4.world) rfl (began_here ((after_kept a34 (by omega)).trans g2))
      (gives_seq hsem _)
    have hw := s4.stage.wf q (by simp)
    refine ⟨hf, e, ?_⟩
    rw [hX]
    exact .cons (periodic_safe (counter_of s4 ⟨hw, z1⟩ (by rw [e]; exact hstep) hX rfl) hv hi)
      (.cons (report_safe (counter_of s4 ⟨hw, z1⟩ (by rw [e]; exact hstep) hX rfl)) .nil)
  | threeBis =>
    change step3bis env p g day c = _ at h
    rw [step3bis] at h
    obtain ⟨u1, c1, h1, h⟩ := Act.bind_eq_ok.1 h
    obtain ⟨u2, c2, h2, h⟩ := Act.bind_eq_ok.1 h
    obtain ⟨ops3, c3, h3, h⟩ := Act.bind_eq_ok.1 h
    obtain ⟨ops4, c4, h4, h⟩ := Act.bind_eq_ok.1 h
    obtain ⟨rfl, rfl⟩ := Act.pure_eq_ok.1 h
    obtain ⟨q, arrays, hq, hids, ha1, ha2, s2, l2, m2, g2, ⟨z1, z2⟩, -, e2⟩ := stocked_site hsem hb ha hnew h1 h2
    have k2 : Cast env [] c2.world := ⟨by rw [m2]; exact .nil, z2⟩
    obtain ⟨rfl, s3, a3, n3, sd, b3⟩ := addCombined_site hq s2 l2 h3
    have k3 := k2.add (S := []) a3 n3 (fun r ⟨sd, h⟩ => .inr ⟨_, h, (hg.timers sd).1⟩) s3.stage.stories
    obtain ⟨rfl, s4, a4, n4, -⟩ := addReport_site hq s3 h4
    have k4 := k3.add a4 n4 (fun r h => .inl h) s4.stage.stories
    have a34 := a3.trans a4
    have e : c4.world.clock.step = step := by rw [a34.clock.2, e2]
    obtain ⟨hf, hX⟩ := k4.fits s4
    have hv := genOk_gives (S := plainSignature env c4.world) rfl (a4.began b3) (hg.volumes sd)
    have hi := genOk_gives (S := plainSignature env c4.world) rfl (began_here ((after_kept a34 (by omega)).trans g2))
      (gives_seq hsem _)
    have hw := s4.stage.wf q (by simp)
    refine ⟨hf, e, ?_⟩
    rw [hX]
    exact .cons (combined_safe (counter_of s4 ⟨hw, z1⟩ (by rw [e]; exact hstep) hX rfl) hv hi)
      (.cons (report_safe (counter_of s4 ⟨hw, z1⟩ (by rw [e]; exact hstep) hX rfl)) .nil)
  | four =>
    change step4 env p g day c = _ at h
    rw [step4] at h
    obtain ⟨u1, c1, h1, h⟩ := Act.bind_eq_ok.1 h
    obtain ⟨u2, c2, h2, h⟩ := Act.bind_eq_ok.1 h
    obtain ⟨ops3, c3, h3, h⟩ := Act.bind_eq_ok.1 h
    obtain ⟨ops4, c4, h4, h⟩ := Act.bind_eq_ok.1 h
    obtain ⟨u5, c5, h5, h⟩ := Act.bind_eq_ok.1 h
    obtain ⟨ops6, c6, h6, h⟩ := Act.bind_eq_ok.1 h
    obtain ⟨rfl, rfl⟩ := Act.pure_eq_ok.1 h
    obtain ⟨q, arrays, hq, hids, ha1, ha2, s2, l2, m2, g2, ⟨z1, z2⟩, -, e2⟩ := stocked_site hsem hb ha hnew h1 h2
    have k2 : Cast env [] c2.world := ⟨by rw [m2]; exact .nil, z2⟩
    obtain ⟨rfl, s3, a3, n3, sd, b3⟩ := addPeriodic_site hq s2 l2 h3
    have k3 := k2.add (S := []) a3 n3 (fun r ⟨sd, h⟩ => .inr ⟨_, h, (hg.timers sd).1⟩) s3.stage.stories
    have l3 := a3.len
    obtain ⟨rfl, s4, a4, n4, -⟩ := addReport_site hq s3 h4
    have k4 := k3.add a4 n4 (fun r h => .inl h) s4.stage.stories
    have l4 := a4.len
    obtain ⟨ids, y1, y2, s5, a5, hkn⟩ := createCustomers_site s4 (by omega) h5
    have k5 := k4.keep a5 (by
      have x4 := congrArg List.length s4.stage.stories
      have x5 := congrArg List.length s5.stage.stories
      rw [List.length_map] at x4 x5
      exact x5.trans x4.symm)
    have l5 := a5.len
    obtain ⟨rfl, s6, a6, n6, sd6, b6⟩ := addPurchases_site hq rfl s5 (by omega) h6
    have k6 := k5.add (S := [_, _]) a6 n6 (fun r ⟨sd, h⟩ => .inr ⟨_, h, (hg.timers sd).2⟩) s6.stage.stories
    have a36 := (a4.trans a5).trans a6
    have e : c6.world.clock.step = step := by rw [a36.clock.2, a3.clock.2, e2]
    obtain ⟨hf, hX⟩ := k6.fits s6
    have hv := genOk_gives (S := plainSignature env c6.world) rfl (a36.began b3) (hg.volumes sd)
    have hi := genOk_gives (S := plainSignature env c6.world) rfl
      (began_here ((after_kept (a3.trans a36) (by omega)).trans g2)) (gives_seq hsem _)
    have hw := s6.stage.wf q (by simp)
    have hne : q.ids ≠ [] := by
      rw [hids]
      exact List.ne_nil_of_length_pos (by rw [Music.length_idsFrom]; exact hpos (.inl rfl))
    obtain ⟨rc, hrc⟩ := hu.choice q.ids none sd6
    have hc := genOk_gives (S := plainSignature env c6.world) rfl b6 (hrc ▸ gives_choice hsem hne)
    refine ⟨hf, e, ?_⟩
    rw [hX]
    have hC : ∀ i, _ → Counter (plainSignature env c6.world) q i := fun i hi =>
      counter_of s6 ⟨hw, z1⟩ (by rw [e]; exact hstep) hX hi
    refine .cons (periodic_safe (hC 0 rfl) hv hi) (.cons (report_safe (hC 1 rfl)) (.cons ?_ .nil))
    have := purchases_built s6 hkn (own := 2) (hC 0 rfl) hX rfl hc (more := []) (.inl rfl)
    rwa [appendOperations, List.append_nil] at this
  | five =>
    change step5 env p g day time c = _ at h
    rw [step5] at h
    obtain ⟨u1, c1, h1, h⟩ := Act.bind_eq_ok.1 h
    obtain ⟨u2, c2, h2, h⟩ := Act.bind_eq_ok.1 h
    obtain ⟨ops3, c3, h3, h⟩ := Act.bind_eq_ok.1 h
    obtain ⟨ops4, c4, h4, h⟩ := Act.bind_eq_ok.1 h
    obtain ⟨u5, c5, h5, h⟩ := Act.bind_eq_ok.1 h
    obtain ⟨ops6, c6, h6, h⟩ := Act.bind_eq_ok.1 h
    obtain ⟨ops7, c7, h7, h⟩ := Act.bind_eq_ok.1 h
    obtain ⟨rfl, rfl⟩ := Act.pure_eq_ok.1 h
    obtain ⟨q, arrays, hq, hids, ha1, ha2, s2, l2, m2, g2, ⟨z1, z2⟩, -, e2⟩ := stocked_site hsem hb ha hnew h1 h2
    have k2 : Cast env [] c2.world := ⟨by rw [m2]; exact .nil, z2⟩
    obtain ⟨rfl, s3, a3, n3, ⟨sd, b3⟩, -⟩ := addInactive_site hq s2 l2 h3
    have k3 := k2.add (S := []) a3 n3 (fun r h => .inl ⟨_, h⟩) s3.stage.stories
    have l3 := a3.len
    obtain ⟨rfl, s4, a4, n4, -⟩ := addReport_site hq s3 h4
    have k4 := k3.add a4 n4 (fun r h => .inl h) s4.stage.stories
    have l4 := a4.len
    obtain ⟨ids, y1, y2, s5, a5, hkn⟩ := createCustomers_site s4 (by omega) h5
    have k5 := k4.keep a5 (by
      have x4 := congrArg List.length s4.stage.stories
      have x5 := congrArg List.length s5.stage.stories
      rw [List.length_map] at x4 x5
      exact x5.trans x4.symm)
    have l5 := a5.len
    obtain ⟨rfl, s6, a6, n6, sd6, b6⟩ := addPurchases_site hq rfl s5 (by omega) h6
    have k6 := k5.add (S := [_, _]) a6 n6 (fun r ⟨sd, h⟩ => .inr ⟨_, h, (hg.timers sd).2⟩) s6.stage.stories
    have l6 := a6.len
    obtain ⟨rfl, s7, a7, sd7, b7⟩ := updatePurchases_site hq s6 h7
    have k7 := k6.keep a7 (by
      have x6 := congrArg List.length s6.stage.stories
      have x7 := congrArg List.length s7.stage.stories
      rw [List.length_map] at x6 x7
      exact x7.trans x6.symm)
    obtain ⟨m, rt, ht, hm⟩ := hu.trigger sd7
    have a36 := ((a4.trans a5).trans a6).trans a7
    have e : c7.world.clock.step = step := by rw [a36.clock.2, a3.clock.2, e2]
    obtain ⟨hf, hX⟩ := k7.fits s7
    have hv := genOk_gives (S := plainSignature env c7.world) rfl (a36.began b3) (hg.volumes sd)
    have hi := genOk_gives (S := plainSignature env c7.world) rfl
      (began_here ((after_kept (a3.trans a36) (by omega)).trans g2)) (gives_seq hsem _)
    have hw := s7.stage.wf q (by simp)
    have hne : q.ids ≠ [] := by
      rw [hids]
      exact List.ne_nil_of_length_pos (by rw [Music.length_idsFrom]; exact hpos (.inr rfl))
    obtain ⟨rc, hrc⟩ := hu.choice q.ids none sd6
    have hc := genOk_gives (S := plainSignature env c7.world) rfl (a7.began b6) (hrc ▸ gives_choice hsem hne)
    refine ⟨hf, e, ?_⟩
    rw [hX]
    have hC : ∀ i, _ → Counter (plainSignature env c7.world) q i := fun i hi =>
      counter_of s7 ⟨hw, z1⟩ (by rw [e]; exact hstep) hX hi
    refine .cons (restock_safe (hC 0 rfl) hv hi) (.cons (report_safe (hC 1 rfl)) (.cons ?_ .nil))
    exact purchases_built s7 hkn (own := 2) (hC 0 rfl) hX rfl hc (.inr ⟨_, genOk_answers rfl (ht ▸ b7)
      (answers_trigger hsem (fun l => by rw [hm, List.length_map]) _), rfl⟩)

/-- **C132** The run of a step of the example of points of sale never raises, whatever its duration, provided that the
timers of restocks and purchases are always numbers, and that volumes are always numbers of items. The steps of the clock
must last at least one second and, in steps 4 and 5, there must be a point of sale. The folder of the logs must be absent
or deletable, and no file may be in the way of its creation. -/
theorem C132_shop_runs (hsem : env.sem = AnyGen.sem env.R) {p : Params} {g : Parts (AnyGen σ)} {b a : SeqGen}
    {vols : List Val} {f : Rat → Rat} (hu : g.Usual b a vols f) (hg : g.Answer env) {name : String} {seed start step : Int}
    (hstep : nsPerSec ≤ step) (hnew : Circus.new env.R name seed start step = .ok c) {st : Step}
    (hpos : st = .four ∨ st = .five → 0 < p.nPos) {chains : List (List (Op (World σ (AnyGen σ))))}
    (hbuild : st.build env p g day time c = .ok chains c')
    {text : Cell → Text} {folder : Path} (so : SetOrder String) (fuel d : Nat) (duration : Int) (delete : Bool) {fs : FS}
    (htree : Tree fs) (hroot : At fs [] .dir) (hne : folder ≠ [])
    (hc : ∀ q t, Below q folder → At fs q (.file t) → q = folder) (hdepth : DepthBelow fs folder d) (hfuel : d < fuel)
    (hdel : delete = true ∨ Absent fs folder) :
    ∃ s', Sys.run env text folder so fuel chains duration delete ⟨c', fs⟩ = .ok () s' := by
  have h0 : (0 : Int) < step := lt_of_lt_of_le (by decide) hstep
  obtain ⟨S, hf, he, hs⟩ := built_safe hsem hu hg hstep hnew hpos hbuild
  obtain ⟨s', h, -⟩ := C101_run so fuel d duration delete ⟨c', fs⟩ hf (by rw [he]; omega) hs htree hroot hne hc hdepth hfuel
    hdel
  exact ⟨s', h⟩

/-! ### Non-vacuity -/

theorem exAnswer : exParts.Answer Trumania.exEnv := by
  refine ⟨fun _ => ⟨answers_cyclic rfl _, answers_cyclic rfl _⟩, fun _ x hx n => ?_⟩
  obtain ⟨cells, g', h1, h2, h3⟩ := gives_choice (env := Trumania.exEnv) (a := [.num 5, .num 15]) rfl (by decide) x hx n
  refine ⟨cells, g', h1, h2, fun c hc => ?_⟩
  obtain ⟨v, rfl, hv⟩ := h3 c hc
  simp only [List.mem_cons, List.not_mem_nil, or_false] at hv
  rcases hv with rfl | rfl
  · exact ⟨5, rfl⟩
  · exact ⟨15, rfl⟩

/-- the run of step 5 of the example with two points of sale ends, whatever its duration -/
example (duration : Int) : ∃ x, exReportsBuilt = some x ∧ ∃ s', Sys.run Trumania.exEnv Trumania.exFmt ["logs"]
    (SetOrder.dedup String) 1 x.1 duration false ⟨x.2, [([], .dir)]⟩ = .ok () s' := by
  obtain ⟨⟨chains, c'⟩, h1, -⟩ := Option.bind_eq_some_iff.1 exReports
  refine ⟨_, h1, ?_⟩
  rw [exReportsBuilt] at h1
  split at h1
  · rename_i c hc
    split at h1
    · rename_i hb
      cases h1
      exact C132_shop_runs (env := Trumania.exEnv) rfl exUsual exAnswer (by decide) hc (fun _ => by decide) hb
        _ _ 0 duration _ ⟨by decide +kernel, by simp [At]⟩ (by simp [At]) (by simp)
        (by simp [At]) (by simp [DepthBelow, At]) (by omega) (.inr (by simp [Absent, At]))
    · cases h1
  · cases h1

/-- **C132** There must be a point of sale: without any the circus of step 4 is built, but the first customer who wants
to buy raises, as there is nobody to choose. -/
theorem C132_no_pos_raises : (match Circus.new Rng.counter "shop" 1234 0 (8 * 3600 * nsPerSec) with
    | .ok c => match Step.four.build Trumania.exEnv { exParams with nPos := 0 } exParts exFmt exFmt c with
      | .ok chains c' => some (Snd.play Trumania.exEnv chains (List.replicate 3 oneStep).flatten c'.world).isSome
      | .error _ _ => none
    | .error _ => none) = some false := by decide +kernel

end Shop
end Trumania
