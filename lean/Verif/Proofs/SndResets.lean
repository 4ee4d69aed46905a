import Verif.Proofs.SndPops

/-! Helper lemmas: what all the stories of the supply network of test_snd.py have in common. -/

namespace Trumania
namespace Snd
open Spec World Circus
variable {σ γ : Type} {env : Env σ γ} {fmt : Int → Cell} {α β : Type} {Q : Story σ → Prop}

/-- the steps that make no story without `Q` -/
def Tells (Q : Story σ → Prop) (a : Act (World σ γ) α) : Prop :=
  ∀ w x w', a w = .ok x w' → (∀ s ∈ w.stories, Q s) → ∀ s ∈ w'.stories, Q s

theorem Tells.bind {a : Act (World σ γ) α} {f : α → Act (World σ γ) β} (ha : Tells Q a) (hf : ∀ x, Tells Q (f x)) :
    Tells Q (a >>= f) := by
  intro w x w' h h0
  obtain ⟨y, w1, h1, h2⟩ := Act.bind_eq_ok.1 h
  exact hf y _ _ _ h2 (ha _ _ _ h1 h0)

theorem Tells.of_stories {a : Act (World σ γ) α} (h : ∀ w x w', a w = .ok x w' → w'.stories = w.stories) :
    Tells Q a := by
  intro w x w' hx h0
  rw [h w x w' hx]
  exact h0

theorem Tells.pure (x : α) : Tells Q (pure x : Act (World σ γ) α) := .of_stories fun w y w' h => by
  obtain ⟨-, rfl⟩ := Act.pure_eq_ok.1 h
  rfl

theorem Tells.ofPy (x : Py α) : Tells Q (Act.ofPy x : Act (World σ γ) α) := .of_stories fun w y w' h => by
  obtain ⟨-, rfl⟩ := Act.ofPy_eq_ok.1 h
  rfl

theorem Tells.getPop (i : Nat) : Tells Q (World.getPop i : Act (World σ γ) _) := .of_stories fun w y w' h => by
  obtain ⟨-, rfl⟩ := getPop_eq_ok.1 h
  rfl

theorem Tells.setPop (i : Nat) (p : Population) : Tells Q (World.setPop i p : Act (World σ γ) _) :=
  .of_stories fun w y w' h => by
    rw [setPop_eq_ok] at h
    subst h
    rfl

theorem Tells.drawSeed : Tells Q (Circus.drawSeed env) := .of_stories fun w x w' h => by
  obtain ⟨s, -, rfl⟩ := drawSeed_eq_ok h
  rfl

theorem Tells.addGenerator (g : γ) : Tells Q (Snd.addGenerator g : Act (World σ γ) _) :=
  .of_stories fun w x w' h => by
    cases h
    rfl

theorem Tells.seeded (mk : Int → γ) : Tells Q (Snd.seeded env mk) := Tells.drawSeed.bind fun _ => .addGenerator _

theorem Tells.generate (g : GenRef) (n : Rat) : Tells Q (World.generate env g n) := .of_stories fun w x w' h => by
  obtain ⟨l, -, rfl⟩ := call_rest h
  rfl

theorem Tells.addRelations (i : Nat) (f t : List Val) (ws : Weights) : Tells Q (Circus.addRelations env i f t ws) :=
  .of_stories fun w x w' h => by
    obtain ⟨r, r', -, -, rfl⟩ := addRelations_eq_ok h
    rfl

theorem Tells.relNamed (pop : Nat) (name : String) : Tells Q (Snd.relNamed pop name : Act (World σ γ) _) :=
  (Tells.getPop _).bind fun _ => .ofPy _

theorem Tells.storyNamed (name : String) : Tells Q (Snd.storyNamed name : Act (World σ γ) _) :=
  .of_stories fun w x w' h => by
    rw [Snd.storyNamed, Act.bind_ok (FS.get_ok w)] at h
    cases hf : w.findStory name with
    | none => rw [hf] at h; cases h
    | some j => rw [hf] at h; cases h; rfl

theorem Tells.createRelationship (pop : Nat) (name : String) :
    Tells Q (Circus.createRelationship env pop name none) := .of_stories fun w x w' h => by
  obtain ⟨p, y, s, -, hp, -, rfl⟩ := createRelationship_eq_ok h
  rfl

theorem Tells.createConstant (pop : Nat) (name : String) (v : Cell) :
    Tells Q (Snd.createConstant pop name v : Act (World σ γ) Unit) :=
  (Tells.getPop _).bind fun _ => (Tells.ofPy _).bind fun _ => .setPop _ _

theorem Tells.createDrawn (pop : Nat) (name : String) (g : GenRef) : Tells Q (Snd.createDrawn env pop name g) := by
  refine (Tells.getPop _).bind fun p => ?_
  split
  · exact (Tells.ofPy _).bind fun _ => .setPop _ _
  · exact (Tells.generate _ _).bind fun _ => (Tells.ofPy _).bind fun _ => .setPop _ _

theorem Tells.fillStock (pop rel : Nat) (items : List Val) : Tells Q (Snd.fillStock env pop rel items) :=
  (Tells.getPop _).bind fun _ => Tells.drawSeed.bind fun _ => (Tells.ofPy _).bind fun _ => .addRelations _ _ _ _

/-- the stories that reset the timers of those who acted, all but one of them -/
def Resets (s : Story σ) : Prop := s.name ≠ "agent_stops_holidays" → s.autoReset = true

theorem Tells.createStory (cfg : StoryConfig) (hc : cfg.name ≠ "agent_stops_holidays" → cfg.autoReset = true) :
    Tells Resets (World.createStory env cfg) := by
  intro w x w' h h0 s hs
  obtain ⟨-, p, s1, w1, h2, h3, rfl, rfl⟩ := createStory_ok h
  obtain ⟨st, s0, w2, -, -, -, k1, -, hname, -, -, -, hauto, -, -, -, -, hor⟩ := newStory_ok h3
  rw [k1, List.mem_append, List.mem_singleton] at hs
  rcases hs with hs | rfl
  · exact h0 s hs
  · have e : s.name = s0.name ∧ s.autoReset = s0.autoReset := by
      rcases hor with ⟨-, rfl, -⟩ | ⟨-, hr⟩
      · exact ⟨rfl, rfl⟩
      · obtain ⟨-, -, h1, -⟩ := resetStory_ok hr
        constructor <;> rw [h1]
    intro hn
    rw [e.2, hauto]
    exact hc (by rw [← hname, ← e.1]; exact hn)

/-! ### The circus -/

/-- the same of the steps of the constructor -/
def TellsC (Q : Story σ → Prop) (a : Act (Circus σ γ) α) : Prop :=
  ∀ c x c', a c = .ok x c' → (∀ s ∈ c.world.stories, Q s) → ∀ s ∈ c'.world.stories, Q s

theorem TellsC.bind {a : Act (Circus σ γ) α} {f : α → Act (Circus σ γ) β} (ha : TellsC Q a)
    (hf : ∀ x, TellsC Q (f x)) : TellsC Q (a >>= f) := by
  intro w x w' h h0
  obtain ⟨y, w1, h1, h2⟩ := Act.bind_eq_ok.1 h
  exact hf y _ _ _ h2 (ha _ _ _ h1 h0)

theorem TellsC.pure (x : α) : TellsC Q (pure x : Act (Circus σ γ) α) := by
  intro w y w' h
  obtain ⟨-, rfl⟩ := Act.pure_eq_ok.1 h
  exact id

theorem TellsC.on {a : Act (World σ γ) α} (ha : Tells Q a) : TellsC Q (onWorld a) :=
  fun _ _ _ h => ha _ _ _ (onWorld_circus h)

theorem TellsC.createPopulation (name : String) (init : PopInit) :
    TellsC Q (Circus.createPopulation env name init) := by
  intro c i c' h h0
  rcases createPopulation_cases (env := env) name init c with ⟨-, he⟩ | ⟨-, ⟨e, w, -, -, he⟩ | ⟨p, w, -, h2, he⟩⟩
  · rw [he] at h; cases h
  · rw [he] at h; cases h
  · rw [he] at h
    cases h
    simp only [World.objects, Prod.mk.injEq] at h2
    simp only [h2]
    exact h0

/-- all the stories that the constructor creates reset timers, but that of the returns from holidays -/
theorem build_resets {p : Params} {g : Parts γ} : TellsC Resets (build env p g fmt) := by
  have dist : TellsC Resets (createDistributors env p g) :=
    (TellsC.on (.addGenerator _)).bind fun _ => (TellsC.createPopulation _ _).bind fun _ =>
      .on ((Tells.createRelationship _ _).bind fun _ => (Tells.addGenerator _).bind fun _ =>
        (Tells.generate _ _).bind fun _ => (Tells.ofPy _).bind fun _ => (Tells.fillStock _ _ _).bind fun _ =>
        (Tells.createConstant _ _ _).bind fun _ => .pure _)
  have deal : TellsC Resets (createDealers env p g) :=
    (TellsC.on (.addGenerator _)).bind fun _ => (TellsC.createPopulation _ _).bind fun _ =>
      .on ((Tells.createRelationship _ _).bind fun _ => (Tells.fillStock _ _ _).bind fun _ =>
        (Tells.addRelations _ _ _ _).bind fun _ => .pure _)
  have agents : TellsC Resets (createAgents env p g) :=
    (TellsC.on (.addGenerator _)).bind fun _ => (TellsC.createPopulation _ _).bind fun _ =>
      .on ((Tells.createRelationship _ _).bind fun _ => (Tells.seeded _).bind fun _ =>
        (Tells.createDrawn _ _ _).bind fun _ => .pure _)
  have reviews : ∀ a, TellsC Resets (addReviews env g fmt a) := fun a =>
    (TellsC.on (.seeded _)).bind fun _ => (TellsC.on (.seeded _)).bind fun _ =>
      (TellsC.createPopulation _ _).bind fun _ => .on ((Tells.createConstant _ _ _).bind fun _ =>
        (Tells.createConstant _ _ _).bind fun _ => (Tells.createConstant _ _ _).bind fun _ =>
        (Tells.createConstant _ _ _).bind fun _ => (Tells.createStory _ fun _ => rfl).bind fun _ =>
        (Tells.addGenerator _).bind fun _ => (Tells.seeded _).bind fun _ => .pure _)
  refine dist.bind fun x => ?_
  refine (TellsC.on ((Tells.createStory _ fun _ => rfl).bind fun _ => (Tells.relNamed _ _).bind fun _ =>
    .pure _)).bind fun _ => ?_
  refine deal.bind fun _ => agents.bind fun _ => ?_
  refine (TellsC.on ((Tells.ofPy _).bind fun _ => (Tells.addGenerator _).bind fun _ => (Tells.getPop _).bind fun _ =>
    (Tells.getPop _).bind fun _ => Tells.drawSeed.bind fun _ => (Tells.ofPy _).bind fun _ =>
    (Tells.createRelationship _ _).bind fun _ => (Tells.generate _ _).bind fun _ =>
    (Tells.ofPy _).bind fun _ => (Tells.addRelations _ _ _ _).bind fun _ => .addRelations _ _ _ _)).bind fun _ => ?_
  refine (TellsC.on ((Tells.createRelationship _ _).bind fun _ => Tells.drawSeed.bind fun _ =>
    (Tells.getPop _).bind fun _ => (Tells.getPop _).bind fun _ => (Tells.ofPy _).bind fun _ =>
    (Tells.ofPy _).bind fun _ => (Tells.addRelations _ _ _ _).bind fun _ => (Tells.seeded _).bind fun _ =>
    .createDrawn _ _ _)).bind fun _ => ?_
  refine (TellsC.on ((Tells.seeded _).bind fun _ => (Tells.seeded _).bind fun _ =>
    (Tells.createStory _ fun _ => rfl).bind fun _ => (Tells.relNamed _ _).bind fun _ =>
    (Tells.relNamed _ _).bind fun _ => (Tells.relNamed _ _).bind fun _ => .pure _)).bind fun _ => ?_
  refine (TellsC.on ((Tells.seeded _).bind fun _ => (Tells.createStory _ fun _ => rfl).bind fun _ =>
    (Tells.relNamed _ _).bind fun _ => (Tells.relNamed _ _).bind fun _ =>
    (Tells.relNamed _ _).bind fun _ => (Tells.storyNamed _).bind fun _ => .pure _)).bind fun _ => ?_
  refine (TellsC.on ((Tells.seeded _).bind fun _ => (Tells.seeded _).bind fun _ => (Tells.seeded _).bind fun _ =>
    (Tells.createStory _ fun _ => rfl).bind fun _ => (Tells.createStory _ fun h => absurd rfl h).bind fun _ =>
    (Tells.storyNamed _).bind fun _ => .pure _)).bind fun _ => ?_
  exact (reviews _).bind fun _ => .pure _

end Snd
end Trumania
