import Verif.Spec.Cdr
import Verif.Spec.Trigger
import Verif.Proofs.Object
import Verif.Proofs.NewStory
import Verif.Proofs.Networks
import Verif.Proofs.Snd
import Verif.Props.Hours

/-! Helper lemmas: the triggers and the story of the top-ups that the constructor of test_cdr.py leaves. -/

namespace Trumania
namespace Cdr
open Spec World Circus Story
variable {σ γ : Type} {env : Env σ γ} {w w' : World σ γ} {g : γ} {r : GenRef}

theorem forall₂_at' {α β : Type} {Q : α → β → Prop} {l : List α} {l' : List β} (h : List.Forall₂ Q l l') {i : Nat}
    {b : β} (hb : l'[i]? = some b) : ∃ a, l[i]? = some a ∧ Q a b := by
  induction h generalizing i with
  | nil => simp at hb
  | cons h hs ih =>
    cases i with
    | zero =>
      cases hb
      exact ⟨_, rfl, h⟩
    | succ i => exact ih hb

theorem beganAt_append {j : Nat} {l : List γ} (x : List γ) (h : BeganAt env g j l) : BeganAt env g j (l ++ x) := by
  obtain ⟨y, h1, h2⟩ := h
  exact ⟨y, by rw [List.getElem?_append_left (List.getElem?_eq_some_iff.1 h1).1]; exact h1, h2⟩

/-- what is drawn -/
theorem began_draws {g : γ} {r : GenRef} {n : Rat} {vals : List Cell} (hw : Began env w r g)
    (h : World.generate env r n w = .ok vals w') : ∀ v ∈ vals, CanDraw env g v := by
  obtain ⟨j, x, rfl, hx, hd⟩ := hw
  obtain ⟨y, y', hy, e, -⟩ := Snd.generate_ref h
  rw [hx] at hy
  cases hy
  exact fun v hv => ⟨x, y', n, vals, hd, e, hv⟩

/-- a new object -/
theorem seeded_began {mk : Int → γ} (h : Snd.seeded env mk w = .ok r w') :
    (∃ seed, Began env w' r (mk seed)) ∧ (∀ {r' : GenRef} {g : γ}, Began env w r' g → Began env w' r' g) ∧
    w'.stories = w.stories := by
  rw [Snd.seeded] at h
  obtain ⟨x, w1, h1, h2⟩ := Act.bind_eq_ok.1 h
  obtain ⟨s, -, rfl⟩ := drawSeed_eq_ok h1
  rw [Snd.addGenerator] at h2
  cases h2
  refine ⟨⟨x, w.gens.length, mk x, rfl, ?_, .refl⟩, fun {r' g} hb => ?_, rfl⟩
  · show (w.gens ++ [mk x])[w.gens.length]? = _
    simp
  · obtain ⟨j, hj, hb⟩ := began_iff.1 hb
    exact began_iff.2 ⟨j, hj, beganAt_append [mk x] hb⟩

theorem generate_began {q : GenRef} {n : Rat} {cells : List Cell} (h : World.generate env q n w = .ok cells w')
    (hb : Began env w r g) : Began env w' r g := by
  obtain ⟨j, hj, hb⟩ := began_iff.1 hb
  exact began_iff.2 ⟨j, hj, call_gens (beganAt_inv j).toGenKept hb h⟩

theorem createDrawn_began {pop : Nat} {name : String} {q : GenRef} {u : Unit}
    (h : Snd.createDrawn env pop name q w = .ok u w') :
    (∀ {r : GenRef} {g : γ}, Began env w r g → Began env w' r g) ∧ w'.stories = w.stories := by
  rw [Snd.createDrawn] at h
  obtain ⟨p, w1, h1, h⟩ := Act.bind_eq_ok.1 h
  obtain ⟨-, rfl⟩ := getPop_eq_ok.1 h1
  obtain ⟨vs, w2, hv, h⟩ : ∃ (vs : List Cell) (w2 : World σ γ),
      ((∀ {r : GenRef} {g : γ}, Began env w r g → Began env w2 r g) ∧ w2.stories = w.stories) ∧
      (do let p ← Act.ofPy (p.createAttribute name vs); setPop pop p : Act (World σ γ) Unit) w2 = .ok u w' := by
    split at h
    · exact ⟨_, w, ⟨fun h => h, rfl⟩, h⟩
    · obtain ⟨vs, w2, h2, h⟩ := Act.bind_eq_ok.1 h
      exact ⟨vs, w2, ⟨generate_began h2, (call_sameRest h2).1⟩, h⟩
  obtain ⟨p', w3, h3, h⟩ := Act.bind_eq_ok.1 h
  obtain ⟨-, rfl⟩ := Act.ofPy_eq_ok.1 h3
  rw [setPop_eq_ok] at h
  subst h
  exact hv

theorem observe_constant {v : Cell} {obs cells : List Cell} (h : World.observe env (.constant v) obs w = .ok cells w') :
    ∀ c ∈ cells, c = v := by
  rw [World.observe, World.call] at h
  obtain ⟨rfl, -⟩ := Act.pure_eq_ok.1 h
  intro c hc
  obtain ⟨_, -, rfl⟩ := List.mem_map.1 hc
  rfl

theorem createStory_began {cfg : StoryConfig} {n : Nat} (h : World.createStory env cfg w = .ok n w') :
    (∀ {r : GenRef} {g : γ}, Began env w r g → Began env w' r g) ∧
    ∃ s, w'.stories = w.stories ++ [s] ∧ s.timerGen = cfg.timerGen ∧
      (cfg.timerGen = .constant (.num (-1)) → ∀ id, ¬Scheduled s id) := by
  obtain ⟨-, p, s, w1, hp, hnew, rfl, rfl⟩ := createStory_ok h
  obtain ⟨states, s0, w2, -, -, -, e1, -, -, -, -, c1, -, -, c3, c4, -, hcase⟩ := newStory_ok hnew
  refine ⟨fun {r g} hb => ?_, s, by rw [e1], ?_, fun hc id => ?_⟩
  · obtain ⟨j, hj, hb⟩ := began_iff.1 hb
    refine began_iff.2 ⟨j, hj, ?_⟩
    rw [newStory] at hnew
    simp only [Act.bind_eq_ok, Act.ofPy_eq_ok] at hnew
    obtain ⟨states', _, ⟨-, rfl⟩, params, w3, h2, h3⟩ := hnew
    have hG := storyParams_kept (beganAt_inv j).toGenKept hb h2
    rw [initialReset] at h3
    split at h3
    · exact resetStory_gens (w' := w1) (beganAt_inv j).toGenKept hG h3
    · obtain ⟨-, rfl⟩ := Act.pure_eq_ok.1 h3
      exact hG
  · rcases hcase with ⟨-, rfl, -⟩ | ⟨-, h5⟩
    · exact c1
    · obtain ⟨-, -, h6, -⟩ := resetStory_ok h5
      rw [h6]
      exact c1
  · rintro ⟨q, hq, ht⟩
    have h0 : ∀ q, timerOf s0 id = some (some q) → q = -1 := by
      intro q hq
      rw [timerOf_eq] at hq
      obtain ⟨row, hrow, hr⟩ := Option.map_eq_some_iff.1 hq
      have := Story.row?_mem hrow
      rw [c4] at this
      obtain ⟨i, -, rfl⟩ := List.mem_map.1 this
      cases hr
      rfl
    rcases hcase with ⟨-, rfl, -⟩ | ⟨-, h5⟩
    · rw [h0 q ht] at hq
      exact absurd hq (by norm_num)
    · obtain ⟨-, -, -, hids, -, -, h6⟩ := resetStory_ok h5
      have hmf : s0.minusForced s0.ids = s0.ids := by simp [Story.minusForced, c3]
      rw [show (none : Option (List Val)).getD s0.ids = s0.ids from rfl, hmf] at h6
      rcases h6 with ⟨-, rfl, -⟩ | ⟨ps, cells, ts, -, -, k1, k2, k3, k4, k5, -⟩
      · rw [h0 q ht] at hq
        exact absurd hq (by norm_num)
      · have hmem : id ∈ s0.ids := by
          by_contra hn
          rw [timerOf_eq, Story.row?_eq_none.2 (by rw [hids]; exact hn)] at ht
          cases ht
        obtain ⟨k, a, x, i1, i2, i3, i4⟩ := k5 id hmem
        rw [timerOf_eq, i4] at ht
        obtain ⟨row, hrow, hrow2⟩ := Option.map_eq_some_iff.1 ht
        obtain ⟨row0, -, rfl⟩ := Option.map_eq_some_iff.1 hrow
        change newTimer a x = _ at hrow2
        rw [newTimer] at hrow2
        split at hrow2
        · rw [c1, hc] at k2
          rw [mapM_ok_iff] at k3
          obtain ⟨c, hcm, hcx⟩ := forall₂_at' k3 i3
          rw [observe_constant k2 c (List.mem_of_getElem? hcm)] at hcx
          cases hcx
          cases hrow2
          exact absurd hq (by norm_num)
        · cases hrow2
          exact absurd hq (by norm_num)

theorem relNamed_same {pop i : Nat} {name : String} (h : Snd.relNamed pop name w = .ok i w') : w' = w := by
  rw [Snd.relNamed] at h
  obtain ⟨p, w1, h1, h⟩ := Act.bind_eq_ok.1 h
  obtain ⟨-, rfl⟩ := getPop_eq_ok.1 h1
  exact (Act.ofPy_eq_ok.1 h).2.symm

theorem storyNamed_same {name : String} {i : Nat} (h : Snd.storyNamed name w = .ok i w') : w' = w := by
  rw [Snd.storyNamed, Act.bind_ok (FS.get_ok w)] at h
  cases hf : w.findStory name with
  | none => rw [hf] at h; cases h
  | some j =>
    rw [hf] at h
    cases h
    rfl

/-- nobody is to be topped up -/
theorem addTopups_dormant {fmt : Int → Cell} {sims : Nat} {ops : List (Op (World σ γ))}
    (h : addTopups env fmt sims w = .ok ops w') :
    ∃ s, w'.stories = w.stories ++ [s] ∧ s.timerGen = .constant (.num (-1)) ∧ ∀ id, ¬Scheduled s id := by
  rw [addTopups] at h
  obtain ⟨own, w1, k1, h⟩ := Act.bind_eq_ok.1 h
  obtain ⟨i, w2, k2, h⟩ := Act.bind_eq_ok.1 h
  rw [relNamed_same k2] at h
  obtain ⟨rfl, rfl⟩ := Act.pure_eq_ok.1 h
  obtain ⟨-, s, h1, h2, h3⟩ := createStory_began k1
  exact ⟨s, h1, h2, h3 rfl⟩

/-- the triggers are objects made for that -/
theorem addCommunications_objects {g : Parts γ} {subs sims cells : Nat} {t : Talk}
    (h : addCommunications env g subs sims cells w = .ok t w') :
    (∃ seed, Began env w' t.flatTrigger (g.flatTrigger seed)) ∧
    (∃ seed, Began env w' t.rechargeTrigger (g.rechargeTrigger seed)) ∧ ∃ l, w'.stories = w.stories ++ l := by
  rw [addCommunications] at h
  obtain ⟨durations, w1, k1, h⟩ := Act.bind_eq_ok.1 h
  obtain ⟨timer, w2, k2, h⟩ := Act.bind_eq_ok.1 h
  obtain ⟨rt, w3, k3, h⟩ := Act.bind_eq_ok.1 h
  obtain ⟨normal, w4, k4, h⟩ := Act.bind_eq_ok.1 h
  obtain ⟨excited, w5, k5, h⟩ := Act.bind_eq_ok.1 h
  obtain ⟨exc, w6, k6, h⟩ := Act.bind_eq_ok.1 h
  obtain ⟨u1, w7, k7, h⟩ := Act.bind_eq_ok.1 h
  obtain ⟨flat, w8, k8, h⟩ := Act.bind_eq_ok.1 h
  obtain ⟨back, w9, k9, h⟩ := Act.bind_eq_ok.1 h
  obtain ⟨calls, w10, k10, h⟩ := Act.bind_eq_ok.1 h
  obtain ⟨sms, w11, k11, h⟩ := Act.bind_eq_ok.1 h
  obtain ⟨friends, w12, k12, h⟩ := Act.bind_eq_ok.1 h
  rw [relNamed_same k12] at h
  obtain ⟨simsOf, w13, k13, h⟩ := Act.bind_eq_ok.1 h
  rw [relNamed_same k13] at h
  obtain ⟨topups, w14, k14, h⟩ := Act.bind_eq_ok.1 h
  rw [storyNamed_same k14] at h
  obtain ⟨rfl, rfl⟩ := Act.pure_eq_ok.1 h
  obtain ⟨s1, b1⟩ := (seeded_began k3).1
  obtain ⟨s2, b2⟩ := (seeded_began k8).1
  refine ⟨⟨s2, (createStory_began k11).1 ((createStory_began k10).1 ((seeded_began k9).2.1 b2))⟩,
    ⟨s1, (createStory_began k11).1 ((createStory_began k10).1 ((seeded_began k9).2.1 ((seeded_began k8).2.1
      ((createDrawn_began k7).1 ((seeded_began k6).2.1 ((seeded_began k5).2.1 ((seeded_began k4).2.1 b1)))))))⟩, ?_⟩
  obtain ⟨-, x, e1, -⟩ := createStory_began k10
  obtain ⟨-, y, e2, -⟩ := createStory_began k11
  refine ⟨[x, y], ?_⟩
  rw [e2, e1, (seeded_began k9).2.2, (seeded_began k8).2.2, (createDrawn_began k7).2, (seeded_began k6).2.2,
    (seeded_began k5).2.2, (seeded_began k4).2.2, (seeded_began k3).2.2, (seeded_began k2).2.2, (seeded_began k1).2.2,
    List.append_assoc]
  rfl

/-! ### Objects are kept by the constructor -/

theorem Began.of_gens (h : w'.gens = w.gens) (hb : Began env w r g) : Began env w' r g := by
  obtain ⟨j, x, h1, h2, h3⟩ := hb
  exact ⟨j, x, h1, by rw [h]; exact h2, h3⟩

/-- a new object, with a seed from a local provider -/
theorem localSeeded_began {mk : Int → γ} {s : σ} {x : GenRef × σ} (h : localSeeded env s mk w = .ok x w') :
    (∃ seed, nextSeed env.R s = .ok (seed, x.2) ∧ Began env w' x.1 (mk seed)) ∧
    ∀ {r' : GenRef} {g : γ}, Began env w r' g → Began env w' r' g := by
  rw [localSeeded] at h
  obtain ⟨⟨seed, st⟩, w1, h1, h⟩ := Act.bind_eq_ok.1 h
  obtain ⟨e, rfl⟩ := Act.ofPy_eq_ok.1 h1
  obtain ⟨q, w2, h2, h⟩ := Act.bind_eq_ok.1 h
  obtain ⟨rfl, rfl⟩ := Act.pure_eq_ok.1 h
  rw [Snd.addGenerator] at h2
  cases h2
  refine ⟨⟨seed, e, w.gens.length, mk seed, rfl, ?_, .refl⟩, fun {r' g} hb => ?_⟩
  · show (w.gens ++ [mk seed])[w.gens.length]? = _
    simp
  · obtain ⟨j, hj, hb⟩ := began_iff.1 hb
    exact began_iff.2 ⟨j, hj, beganAt_append [mk seed] hb⟩

theorem createRelationship_began {pop i : Nat} {name : String}
    (h : createRelationship env pop name none w = .ok i w') (hb : Began env w r g) : Began env w' r g := by
  obtain ⟨p, x, s, -, -, -, rfl⟩ := createRelationship_eq_ok h
  exact Began.of_gens rfl hb

theorem addRelations_began {i : Nat} {f t : List Val} {ws : Weights} {u : Unit}
    (h : addRelations env i f t ws w = .ok u w') (hb : Began env w r g) : Began env w' r g := by
  obtain ⟨r1, r2, -, -, rfl⟩ := addRelations_eq_ok h
  exact Began.of_gens rfl hb

theorem addWeighted_began {rel : Nat} {q : GenRef} {pairs : List (Val × Val)} {u : Unit}
    (h : addWeighted env rel q pairs w = .ok u w') (hb : Began env w r g) : Began env w' r g := by
  rw [addWeighted] at h
  obtain ⟨cells, w1, h1, h⟩ := Act.bind_eq_ok.1 h
  obtain ⟨ws, w2, h2, h⟩ := Act.bind_eq_ok.1 h
  obtain ⟨-, rfl⟩ := Act.ofPy_eq_ok.1 h2
  exact addRelations_began h (generate_began h1 hb)

theorem createFromRelation_began {pop rel : Nat} {name : String} {u : Unit}
    (h : createFromRelation env pop rel name w = .ok u w') (hb : Began env w r g) : Began env w' r g := by
  rw [createFromRelation] at h
  obtain ⟨p, w1, h1, h⟩ := Act.bind_eq_ok.1 h
  obtain ⟨-, rfl⟩ := getPop_eq_ok.1 h1
  obtain ⟨x, w2, h2, h⟩ := Act.bind_eq_ok.1 h
  obtain ⟨-, rfl⟩ := getRel_eq_ok.1 h2
  obtain ⟨⟨a, x'⟩, w3, h3, h⟩ := Act.bind_eq_ok.1 h
  obtain ⟨-, rfl⟩ := Act.ofPy_eq_ok.1 h3
  obtain ⟨u1, w4, h4, h⟩ := Act.bind_eq_ok.1 h
  obtain rfl := setRel_eq_ok.1 h4
  obtain rfl := setPop_eq_ok.1 h
  exact Began.of_gens rfl hb

theorem addMobility_began {p : Parts γ} {fmt : Int → Cell} {subs cells : Nat} {ops : List (Op (World σ γ))}
    (h : addMobility env p fmt subs cells w = .ok ops w') (hb : Began env w r g) : Began env w' r g := by
  rw [addMobility] at h
  obtain ⟨timer, w1, k1, h⟩ := Act.bind_eq_ok.1 h
  obtain ⟨weights, w2, k2, h⟩ := Act.bind_eq_ok.1 h
  obtain ⟨rel, w3, k3, h⟩ := Act.bind_eq_ok.1 h
  obtain ⟨s, w4, k4, h⟩ := Act.bind_eq_ok.1 h
  obtain ⟨-, rfl⟩ := getPop_eq_ok.1 k4
  obtain ⟨c, w5, k5, h⟩ := Act.bind_eq_ok.1 h
  obtain ⟨-, rfl⟩ := getPop_eq_ok.1 k5
  obtain ⟨seed, w6, k6, h⟩ := Act.bind_eq_ok.1 h
  obtain ⟨st, -, rfl⟩ := drawSeed_eq_ok k6
  obtain ⟨pairs, w7, k7, h⟩ := Act.bind_eq_ok.1 h
  obtain ⟨-, rfl⟩ := Act.ofPy_eq_ok.1 k7
  obtain ⟨u1, w8, k8, h⟩ := Act.bind_eq_ok.1 h
  obtain ⟨u2, w9, k9, h⟩ := Act.bind_eq_ok.1 h
  obtain ⟨own, w10, k10, h⟩ := Act.bind_eq_ok.1 h
  obtain ⟨-, rfl⟩ := Act.pure_eq_ok.1 h
  refine (createStory_began k10).1 (createFromRelation_began k9 (addWeighted_began k8 ?_))
  exact Began.of_gens (w := w3) rfl (createRelationship_began k3 ((seeded_began k2).2.1 ((seeded_began k1).2.1 hb)))

theorem addErNetwork_began {graph : Nat → Rat → Int → List (Nat × Nat)} {pop : Nat} {name : String} {degree : Rat}
    {u : Unit} (h : addErNetwork env graph pop name degree w = .ok u w') (hb : Began env w r g) :
    Began env w' r g := by
  rw [addErNetwork] at h
  obtain ⟨ws, w1, k1, h⟩ := Act.bind_eq_ok.1 h
  obtain ⟨st, -, rfl⟩ := drawSeed_eq_ok k1
  obtain ⟨p, w2, k2, h⟩ := Act.bind_eq_ok.1 h
  obtain ⟨-, rfl⟩ := getPop_eq_ok.1 k2
  obtain ⟨prob, w3, k3, h⟩ := Act.bind_eq_ok.1 h
  obtain ⟨-, rfl⟩ := Act.ofPy_eq_ok.1 k3
  obtain ⟨seed, w4, k4, h⟩ := Act.bind_eq_ok.1 h
  obtain ⟨st', -, rfl⟩ := drawSeed_eq_ok k4
  obtain ⟨values, w5, k5, h⟩ := Act.bind_eq_ok.1 h
  obtain ⟨-, rfl⟩ := Act.ofPy_eq_ok.1 k5
  obtain ⟨rel, w6, k6, h⟩ := Act.bind_eq_ok.1 h
  obtain ⟨u1, w7, k7, h⟩ := Act.bind_eq_ok.1 h
  exact addRelations_began h (addRelations_began k7 (createRelationship_began k6 (Began.of_gens rfl hb)))

theorem addTopups_began {fmt : Int → Cell} {sims : Nat} {ops : List (Op (World σ γ))}
    (h : addTopups env fmt sims w = .ok ops w') (hb : Began env w r g) : Began env w' r g := by
  rw [addTopups] at h
  obtain ⟨own, w1, k1, h⟩ := Act.bind_eq_ok.1 h
  obtain ⟨i, w2, k2, h⟩ := Act.bind_eq_ok.1 h
  rw [relNamed_same k2] at h
  obtain ⟨rfl, rfl⟩ := Act.pure_eq_ok.1 h
  exact (createStory_began k1).1 hb

theorem addCommunications_began {p : Parts γ} {subs sims cells : Nat} {t : Talk}
    (h : addCommunications env p subs sims cells w = .ok t w') (hb : Began env w r g) : Began env w' r g := by
  rw [addCommunications] at h
  obtain ⟨durations, w1, k1, h⟩ := Act.bind_eq_ok.1 h
  obtain ⟨timer, w2, k2, h⟩ := Act.bind_eq_ok.1 h
  obtain ⟨rt, w3, k3, h⟩ := Act.bind_eq_ok.1 h
  obtain ⟨normal, w4, k4, h⟩ := Act.bind_eq_ok.1 h
  obtain ⟨excited, w5, k5, h⟩ := Act.bind_eq_ok.1 h
  obtain ⟨exc, w6, k6, h⟩ := Act.bind_eq_ok.1 h
  obtain ⟨u1, w7, k7, h⟩ := Act.bind_eq_ok.1 h
  obtain ⟨flat, w8, k8, h⟩ := Act.bind_eq_ok.1 h
  obtain ⟨back, w9, k9, h⟩ := Act.bind_eq_ok.1 h
  obtain ⟨calls, w10, k10, h⟩ := Act.bind_eq_ok.1 h
  obtain ⟨sms, w11, k11, h⟩ := Act.bind_eq_ok.1 h
  obtain ⟨friends, w12, k12, h⟩ := Act.bind_eq_ok.1 h
  rw [relNamed_same k12] at h
  obtain ⟨simsOf, w13, k13, h⟩ := Act.bind_eq_ok.1 h
  rw [relNamed_same k13] at h
  obtain ⟨topups, w14, k14, h⟩ := Act.bind_eq_ok.1 h
  rw [storyNamed_same k14] at h
  obtain ⟨rfl, rfl⟩ := Act.pure_eq_ok.1 h
  exact (createStory_began k11).1 ((createStory_began k10).1 ((seeded_began k9).2.1 ((seeded_began k8).2.1
    ((createDrawn_began k7).1 ((seeded_began k6).2.1 ((seeded_began k5).2.1 ((seeded_began k4).2.1
      ((seeded_began k3).2.1 ((seeded_began k2).2.1 ((seeded_began k1).2.1 hb))))))))))

end Cdr
end Trumania
