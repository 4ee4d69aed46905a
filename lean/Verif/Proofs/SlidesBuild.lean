import Verif.Proofs.SlidesRun
import Verif.Proofs.BlogBuild

/-! Helper lemmas: what the examples of examples/presentation build. -/

namespace Trumania
namespace Slides
open Spec World Circus Cdr
open Shop (Site onWorld_ok)
open Music (length_idsFrom table_new seq_ids)
open Hello (Weighted Lot lot_same lot_drawSeed lot_addGenerator lot_seeded lot_generate lot_createDrawn)
variable {σ : Type} {env : Env σ (AnyGen σ)} {w w' w1 w2 : World σ (AnyGen σ)} {c c' : Circus σ (AnyGen σ)}
  {R : List (List (Val × Val × Rat))} {P : List Population} {T : List (Story σ)} {k : Int × Int}

/-- the persons, with their names and ages -/
theorem createPersons_lot (hsem : env.sem = AnyGen.sem env.R) {n : Nat} {g : Blog.Parts (AnyGen σ)} {b : SeqGen} {i : Nat}
    (hg : g.Usual b) {name : String} {seed start step : Int} (hnew : Circus.new env.R name seed start step = .ok c)
    (h : createPersons env n g c = .ok i c') :
    i = 0 ∧ ∃ a y, (∀ i ∈ idsFrom b n, ∃ x, Holds a i x) ∧ (∀ i ∈ idsFrom b n, ∃ x, Holds y i x) ∧
      Lot env [] [⟨idsFrom b n, n, [("NAME", a), ("age", y)], []⟩] [] (start, step) c'.world := by
  obtain ⟨s0, l0, -, d1, d2⟩ := Shop.new_site (env := env) hnew
  rw [createPersons] at h
  obtain ⟨r1, c1, h1, h⟩ := Act.bind_eq_ok.1 h
  obtain ⟨u1, h1', rfl⟩ := onWorld_ok h1
  have s1 := stage_addGenerator s0.stage h1'
  obtain ⟨a1, rfl, g1⟩ := Shop.after_addGenerator (env := env) h1'
  have l1 : u1.gens.length = 1 := by rw [a1.len, l0]
  have hgen : u1.gens[c.world.gens.length]? = some g.personIds := by
    rw [g1, List.getElem?_append_right (le_refl _), Nat.sub_self]
    rfl
  obtain ⟨pop, c4, h4, h⟩ := Act.bind_eq_ok.1 h
  obtain ⟨ids, rfl, hids, s4, a4⟩ := Shop.site_createPopulation (c := { c with world := u1 }) ⟨s1, s0.pops, s0.gens⟩
    (.inl (by show u1.gens.length ≤ 4; omega)) h4
  have hids : ids = idsFrom b n := by
    refine seq_ids hsem hg.persons (hids.imp_right ?_)
    rintro ⟨cells, y, hg, hv⟩
    obtain ⟨gg, gg', e5, e6, -⟩ := generate_ref_ok.1 hg
    change u1.gens[c.world.gens.length]? = _ at e5
    rw [hgen] at e5
    cases e5
    exact ⟨cells, gg', e6, hv⟩
  subst hids
  have hlot : Lot env [] [⟨idsFrom b n, n, [], []⟩] [] (start, step) c4.world := by
    refine ⟨?_, s4.stage.pops, s4.stage.wf, List.map_eq_nil_iff.1 s4.stage.stories, ?_, ?_⟩
    · rw [List.forall₂_nil_right_iff.1 s4.stage.rels]
      exact .nil
    · exact a4.clock.1.trans (a1.clock.1.trans d1)
    · exact a4.clock.2.trans (a1.clock.2.trans d2)
  obtain ⟨r2, c2, h2, h⟩ := Act.bind_eq_ok.1 h
  obtain ⟨u2, h2', rfl⟩ := onWorld_ok h2
  have l2 := lot_seeded hlot h2'
  obtain ⟨x5, c5, h5, h⟩ := Act.bind_eq_ok.1 h
  obtain ⟨u5, h5', rfl⟩ := onWorld_ok h5
  obtain ⟨q, a, values, hq, ha, l5⟩ := lot_createDrawn (w := u2) l2 h5'
  cases hq
  replace l5 : Lot env [] [⟨idsFrom b n, n, [("NAME", a)], []⟩] [] (start, step) u5 := l5
  obtain ⟨r3, c3, h3, h⟩ := Act.bind_eq_ok.1 h
  obtain ⟨u3, h3', rfl⟩ := onWorld_ok h3
  have l3 := lot_seeded (w := u5) l5 h3'
  obtain ⟨x6, c6, h6, h⟩ := Act.bind_eq_ok.1 h
  obtain ⟨u6, h6', rfl⟩ := onWorld_ok h6
  obtain ⟨q, y, values', hq, hy, l6⟩ := lot_createDrawn (w := u3) l3 h6'
  cases hq
  obtain ⟨rfl, rfl⟩ := Act.pure_eq_ok.1 h
  have hz : n = 0 → idsFrom b n = [] := fun e => by rw [e]; rfl
  exact ⟨rfl, a, y, (new_holds ha hz).1, (new_holds hy hz).1, l6⟩

/-- the activities and the timer of script 8 -/
theorem activity_lot {g : Blog.Parts (AnyGen σ)} {b : SeqGen} (hg : g.Usual b) {r1 r2 : GenRef} (hs : Lot env R P T k w)
    (h1 : Snd.seeded env (g.choice [.num 10, .num 20, .num 30] none) w = .ok r1 w1)
    (h2 : Snd.seeded env g.timer w1 = .ok r2 w') : Lot env R P T k w' ∧ (∃ seed, Began env w' r2 (g.timer seed)) ∧
      ∃ x, Began env w' r1 (.choice [.num 10, .num 20, .num 30] none x) := by
  have s1 := lot_seeded hs h1
  obtain ⟨-, -, seed1, b1⟩ := Shop.after_seeded (env := env) h1
  obtain ⟨a2, -, seed2, b2⟩ := Shop.after_seeded (env := env) h2
  obtain ⟨x, hx⟩ := hg.choice [.num 10, .num 20, .num 30] none seed1
  rw [hx] at b1
  exact ⟨lot_seeded s1 h2, ⟨seed2, b2⟩, x, a2.began b1⟩

end Slides
end Trumania
