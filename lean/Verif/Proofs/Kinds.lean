import Verif.Spec.Begins
import Verif.Props.Typed
import Verif.Props.StoryStates
import Verif.Proofs.ShopOps
import Verif.Proofs.DbLoad

/-! Helper lemmas: what the objects of a circus that was just built satisfy. -/

namespace Trumania
open Spec World
variable {σ : Type} {env : Env σ (AnyGen σ)} {w w' : World σ (AnyGen σ)}

/-! ### Generators -/

theorem descends_trans {g x y : AnyGen σ} (h1 : Descends env g x) (h2 : Descends env x y) : Descends env g y := by
  induction h2 with
  | refl => exact h1
  | generate _ e ih => exact .generate ih e
  | observe _ e ih => exact .observe ih e
  | tick _ ih => exact .tick ih

theorem descends_cyclic (hsem : env.sem = AnyGen.sem env.R) {t : CyclicTimer σ} {x : AnyGen σ}
    (h : Descends env (.cyclic t) x) : ∃ t', x = .cyclic t' := by
  induction h with
  | refl => exact ⟨t, rfl⟩
  | generate _ e ih =>
    obtain ⟨s', rfl⟩ := ih
    rw [hsem] at e
    cases e
  | observe _ e ih =>
    obtain ⟨s', rfl⟩ := ih
    rw [hsem] at e
    change AnyGen.observe env.R (.cyclic s') _ = _ at e
    rw [AnyGen.observe] at e
    obtain ⟨qs, -, e⟩ := bind_eq_ok.1 e
    cases e
    exact ⟨_, rfl⟩
  | tick _ ih =>
    obtain ⟨s', rfl⟩ := ih
    rw [hsem]
    exact ⟨_, rfl⟩

/-- a choice among the values of a list always gives some of them -/
theorem gives_choice (hsem : env.sem = AnyGen.sem env.R) {a : List Val} {s : σ} (ha : a ≠ []) :
    AlwaysGives env (.choice a none s) (IdIn (· ∈ a)) := by
  intro x hx n
  obtain ⟨s', rfl⟩ := Shop.descends_choice hsem hx
  obtain ⟨cells, g', e, -, hl, hP⟩ := choice_answers hsem ha s' n
  exact ⟨cells, g', e, hl, hP⟩

/-- draws between two bounds are always numbers -/
theorem gives_uniform (hsem : env.sem = AnyGen.sem env.R) {lo hi : Rat} {s : σ} :
    AlwaysGives env (.uniform lo hi s) IsAmount := by
  intro x hx n
  have hk : ∃ s', x = .uniform lo hi s' := by
    induction hx with
    | refl => exact ⟨s, rfl⟩
    | generate _ e ih =>
      obtain ⟨s', rfl⟩ := ih
      rw [hsem] at e
      change AnyGen.generate env.R (.uniform lo hi s') _ = _ at e
      rw [AnyGen.generate] at e
      split at e
      · cases e
        exact ⟨_, rfl⟩
      · cases e
    | observe _ e ih =>
      obtain ⟨s', rfl⟩ := ih
      rw [hsem] at e
      cases e
    | tick _ ih =>
      obtain ⟨s', rfl⟩ := ih
      rw [hsem]
      exact ⟨_, rfl⟩
  obtain ⟨s', rfl⟩ := hk
  rw [hsem]
  have e : AnyGen.generate env.R (.uniform lo hi s') (n : Rat) = .ok
      ((env.R.uniform s' (n : Rat).num.toNat).1.map (fun u => Cell.num (lo + (hi - lo) * u)),
        .uniform lo hi (env.R.uniform s' (n : Rat).num.toNat).2) := if_pos (natSize n)
  refine ⟨_, _, e, AnyGen.C74_as_many_as_asked e, fun c hc => ?_⟩
  obtain ⟨t, -, rfl⟩ := List.mem_map.1 hc
  exact .inr ⟨_, rfl⟩

/-- a cyclic timer always gives timers -/
theorem answers_cyclic (hsem : env.sem = AnyGen.sem env.R) (t : CyclicTimer σ) :
    AlwaysAnswers env (.cyclic t) (fun c => ∃ q, c = .scalar (.num q)) IsAmount := by
  intro x hx obs ho
  obtain ⟨t', rfl⟩ := descends_cyclic hsem hx
  obtain ⟨cells, g', e, -, hl, hP⟩ := cyclic_answers hsem t' ho
  exact ⟨cells, g', e, hl, hP⟩

theorem genOk_gives {S : Sig (AnyGen σ)} (hS : S.gens = w.gens.map (Descends env)) {r : GenRef} {g : AnyGen σ}
    {P : Cell → Prop} (h : Began env w r g) (hg : AlwaysGives env g P) : GenOk env S r .size P := by
  obtain ⟨j, x, rfl, hx, hd⟩ := h
  refine .refSize (I := Descends env x) (by rw [hS, List.getElem?_map, hx]; rfl) fun y n hy => ?_
  obtain ⟨cells, x', e, hl, hP⟩ := hg y (descends_trans hd hy) n
  exact ⟨cells, x', e, .generate hy e, hl, hP⟩

theorem genOk_answers {S : Sig (AnyGen σ)} (hS : S.gens = w.gens.map (Descends env)) {r : GenRef} {g : AnyGen σ}
    {A P : Cell → Prop} (h : Began env w r g) (hg : AlwaysAnswers env g A P) : GenOk env S r (.series A) P := by
  obtain ⟨j, x, rfl, hx, hd⟩ := h
  refine .refSeries (I := Descends env x) (by rw [hS, List.getElem?_map, hx]; rfl) fun y obs hy ho => ?_
  obtain ⟨cells, x', e, hl, hP⟩ := hg y (descends_trans hd hy) obs ho
  exact ⟨cells, x', e, .observe hy e, hl, hP⟩

theorem gens_fit {S : Sig (AnyGen σ)} (hS : S.gens = w.gens.map (Descends env)) :
    (∀ I ∈ S.gens, ∀ g, I g → I (env.sem.tick g)) ∧ List.Forall₂ (fun I g => I g) S.gens w.clock.listeners := by
  rw [hS]
  refine ⟨fun I hI g hg => ?_, ?_⟩
  · obtain ⟨x, -, rfl⟩ := List.mem_map.1 hI
    exact .tick hg
  · rw [List.forall₂_map_left_iff]
    exact List.forall₂_same.2 fun g _ => .refl

/-! ### Populations -/

/-- the attributes of a population: who has a value now -/
def attKinds (p : Population) : Dict String AttKind := p.attributes.map fun x => (x.1, ⟨(· ∈ x.2.ids), fun _ => True⟩)

theorem attKinds_get {p : Population} (hp : Population.WF p) {name : String} {a : Attribute} (h : attributeOf p name a) :
    (attKinds p).get? name = some ⟨(· ∈ a.ids), fun _ => True⟩ := by
  have e := Population.get?_map_snd (fun a : Attribute => (⟨(· ∈ a.ids), fun _ => True⟩ : AttKind)) p.attributes name
  refine e.trans ?_
  rw [(Dict.get?_eq_some_iff hp.names).2 h]
  rfl

theorem pop_fits (p : Population) : PopFits (attKinds p) p := by
  refine ⟨fun name => by simp [attKinds, Dict.keys, Function.comp_def], fun name k a hk ha => ?_⟩
  have e := Population.get?_map_snd (fun a : Attribute => (⟨(· ∈ a.ids), fun _ => True⟩ : AttKind)) p.attributes name
  have hk : Dict.get? (p.attributes.map fun x => (x.1, (⟨(· ∈ x.2.ids), fun _ => True⟩ : AttKind))) name = some k := hk
  rw [e, ha] at hk
  cases hk
  exact ⟨fun _ h => h, fun _ _ => trivial⟩

/-! ### Stories -/

theorem createStory_begins {cfg : StoryConfig} {n : Nat} {p : Population} (hp : w.pops[cfg.population]? = some p)
    (hids : p.ids.Nodup) (h : World.createStory env cfg w = .ok n w') :
    ∃ s, w'.stories[n]? = some s ∧ Begins s p.ids fun st => ∃ g, (cfg.states.getD []).get? st = some g := by
  obtain ⟨s, order, drawn, w1, d1, d2, d3, d4, d5, d6⟩ := C90_parameters_of_a_new_story env cfg w w' n p hp hids h
  refine ⟨s, d1, ?_⟩
  obtain ⟨-, q, s', w2, h2, h3, hn, rfl⟩ := createStory_ok h
  rw [hp] at h2
  cases h2
  obtain ⟨st, s0, w3, -, -, -, k1, k2, k3, k4, k5, k6, k7, k8, k9, k10, -, h5⟩ := newStory_ok h3
  obtain rfl : s' = s := by
    have e : (w2.stories ++ [s'])[n]? = some s := d1
    rw [hn] at e
    simpa using e
  have hids0 : s0.ids = p.ids := by simp [Story.ids, k10, Function.comp_def]
  have hst0 : ∀ i ∈ p.ids, stateOf s0 i = some (.str "default") := by
    intro i hi
    rw [stateOf, k10, List.find?_map]
    obtain ⟨x, hx⟩ : ∃ x, p.ids.find? ((fun r : TimerRow => decide (r.id = i)) ∘
        fun i => ⟨i, defaultState, some (-1)⟩) = some x :=
      Option.isSome_iff_exists.1 (List.find?_isSome.2 ⟨i, hi, by simp⟩)
    rw [hx]
    rfl
  have hb : s'.ids = p.ids ∧ ∀ i, stateOf s' i = stateOf s0 i := by
    rcases h5 with ⟨-, rfl, -⟩ | ⟨-, h5⟩
    · exact ⟨hids0, fun _ => rfl⟩
    · obtain ⟨-, -, -, h7, -, h8, -⟩ := resetStory_ok h5
      exact ⟨h7.trans hids0, h8⟩
  refine ⟨hb.1, fun i hi => (hb.2 i).trans (hst0 i hi), fun i hi st hst => ?_⟩
  obtain ⟨m, hm⟩ := List.mem_iff_getElem?.1 hi
  have hord : ∃ g, (st, g) ∈ order := by
    rcases hst with rfl | ⟨g, hg⟩
    · exact ⟨_, (d3 _ _).2 (.inl ⟨rfl, rfl⟩)⟩
    · exact ⟨g, (d3 _ _).2 (.inr hg)⟩
  obtain ⟨g, hord⟩ := hord
  have hmem : st ∈ drawn.map Prod.fst := by
    rw [d5]
    exact List.mem_map_of_mem hord
  obtain ⟨⟨st, acts, backs⟩, hd, rfl⟩ := List.mem_map.1 hmem
  obtain ⟨l1, l2, l3⟩ := d6 _ _ _ hd
  have hlt := (List.getElem?_eq_some_iff.1 hm).1
  obtain ⟨ps, e1, e2⟩ := l3 m i _ _ hm (List.getElem?_eq_getElem (by rw [l1]; exact hlt))
    (List.getElem?_eq_getElem (by rw [l2]; exact hlt))
  exact ⟨ps, _, e1, e2⟩

theorem story_fits {S : Sig (AnyGen σ)} {s : Story σ} {ids : List Val} {others : Val → Prop} (hn : ids.Nodup)
    (h : Begins s ids others) (hd : (∃ v, s.timerGen = .constant v) ∨ ∃ j, s.timerGen = .ref j)
    (ht : GenOk env S s.timerGen (.series fun c => ∃ q, c = .scalar (.num q)) IsAmount) :
    StoryFits env S ⟨(· ∈ ids), fun st => st = .str "default" ∨ others st, s.idField⟩ s := by
  have hn' : s.ids.Nodup := by rw [h.members]; exact hn
  refine ⟨hn', fun v => by rw [h.members], .inl rfl, fun r hr => .inl ?_, fun v st hv hst => h.params v hv st hst, rfl, hd, ht⟩
  have hid : r.id ∈ s.ids := List.mem_map_of_mem hr
  have e := h.default r.id (by rw [← h.members]; exact hid)
  have e2 : s.row? r.id = some r := Story.row?_of_mem hn' hr
  have e3 : stateOf s r.id = some r.state := by
    rw [stateOf]
    have : s.timer.find? (fun x => decide (x.id = r.id)) = some r := by
      rw [← e2]
      rfl
    rw [this]
    rfl
  rw [e3] at e
  exact Option.some.inj e

end Trumania
