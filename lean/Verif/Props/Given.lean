import Verif.Spec.Given
import Verif.Props.Firsts

/-!
# C131, C135: the names and the messages of the records were given by the generators of names and of sentences
-/

namespace Trumania
namespace Firsts
open Spec World Circus Cdr
open Shop (onWorld_ok)
open Hello (Lot lot_seeded lot_generate lot_addRelations lot_createRelationship)
open Slides (MayGive)
open Blog (relationsAt relationsAt_of)
variable {σ : Type} {env : Env σ (AnyGen σ)} {w w' : World σ (AnyGen σ)} {c c' : Circus σ (AnyGen σ)}
  {R : List (List (Val × Val × Rat))} {P : List Population} {T : List (Story σ)} {k : Int × Int}

/-! ### The quotes -/

theorem addQuote_given (hsem : env.sem = AnyGen.sem env.R) {pop rel : Nat} {gen : Nat} {q : Rat} {u : Unit}
    {L : List (Val × Val × Rat)} {p : Population} {a : AnyGen σ} (hp : P[pop]? = some p) (hsize : p.ids.length = p.size)
    (hs : Lot env R P T k w) (hL : R[rel]? = some L) (hb : Began env w (.ref gen) a)
    (hg : ∀ x ∈ L, MayGive env a (.scalar x.2.1)) (h : Blog.addQuote env pop rel (.ref gen) q w = .ok u w') :
    ∃ L', (∀ x ∈ L', MayGive env a (.scalar x.2.1)) ∧ Lot env (R.set rel L') P T k w' ∧ Began env w' (.ref gen) a := by
  rw [Blog.addQuote] at h
  obtain ⟨p', v1, k1, h1⟩ := Act.bind_eq_ok.1 h
  obtain ⟨hp', rfl⟩ := getPop_eq_ok.1 k1
  rw [hs.pops, hp] at hp'
  cases hp'
  obtain ⟨cells, v2, k2, h1⟩ := Act.bind_eq_ok.1 h1
  obtain ⟨tos, v3, k3, h1⟩ := Act.bind_eq_ok.1 h1
  obtain ⟨k4, rfl⟩ := Act.ofPy_eq_ok.1 k3
  obtain ⟨gg, gg', e5, e6, -⟩ := generate_ref_ok.1 k2
  have hlen : tos.length = p.ids.length := by
    have e7 := e6
    rw [hsem] at e7
    have := AnyGen.C74_as_many_as_asked e7
    rw [Hello.asVal_scalars k4, List.length_map] at this
    rw [this, hsize]
  obtain ⟨L', hL', s1, eg⟩ := lot_addRelations hlen.symm (lot_generate hs k2) h1
  rw [hL] at hL'
  cases hL'
  refine ⟨_, fun x hx => ?_, s1, ?_⟩
  · rcases List.mem_append.1 hx with hx | hx
    · exact hg x hx
    · obtain ⟨y, hy, rfl⟩ := List.mem_map.1 hx
      obtain ⟨j, z, e1, e2, hd⟩ := hb
      cases e1
      rw [e5] at e2
      cases e2
      refine ⟨gg, _, cells, gg', hd, e6, ?_⟩
      rw [Hello.asVal_scalars k4]
      exact List.mem_map_of_mem (List.of_mem_zip hy).2
  · exact addRelations_began h1 (generate_began k2 hb)

/-- the quotes were given by the generator of sentences -/
theorem addQuotes_given (hsem : env.sem = AnyGen.sem env.R) {g : Blog.Parts (AnyGen σ)} {pop : Nat} {p : Population} {u : Unit}
    (hp : P[pop]? = some p) (hsize : p.ids.length = p.size) (hs : Lot env R P T k w)
    (h : Blog.addQuotes env g pop w = .ok u w') : ∃ L, (∃ sd, ∀ x ∈ L, MayGive env (g.quotes sd) (.scalar x.2.1)) ∧
      Lot env (R ++ [L]) (P.set pop { p with relationships := p.relationships.set "quotes" R.length }) T k w' := by
  rw [Blog.addQuotes] at h
  obtain ⟨gen, w1, h1, h⟩ := Act.bind_eq_ok.1 h
  have s1 := lot_seeded hs h1
  obtain ⟨-, rfl, sd, b1⟩ := Shop.after_seeded (env := env) h1
  obtain ⟨rel, w2, h2, h⟩ := Act.bind_eq_ok.1 h
  obtain ⟨p', hp', rfl, s2, e2⟩ := lot_createRelationship s1 h2
  rw [hp] at hp'
  cases hp'
  have hq : (P.set pop { p with relationships := p.relationships.set "quotes" R.length })[pop]? =
      some { p with relationships := p.relationships.set "quotes" R.length } := by
    rw [List.getElem?_set_self (List.getElem?_eq_some_iff.1 hp).1]
  have key : ∀ (ws : List Rat) (w2 w' : World σ (AnyGen σ)) (L : List (Val × Val × Rat)),
      (∀ x ∈ L, MayGive env (g.quotes sd) (.scalar x.2.1)) →
      Lot env (R ++ [L]) (P.set pop { p with relationships := p.relationships.set "quotes" R.length }) T k w2 →
      Began env w2 (.ref w.gens.length) (g.quotes sd) →
      Act.forEach (Blog.addQuote env pop R.length (.ref w.gens.length)) ws w2 = .ok u w' →
      ∃ L, (∀ x ∈ L, MayGive env (g.quotes sd) (.scalar x.2.1)) ∧
        Lot env (R ++ [L]) (P.set pop { p with relationships := p.relationships.set "quotes" R.length }) T k w' := by
    intro ws
    induction ws with
    | nil =>
      intro w2 w' L hL hs _ h
      obtain ⟨-, rfl⟩ := Act.pure_eq_ok.1 h
      exact ⟨L, hL, hs⟩
    | cons q ws ih =>
      intro w2 w' L hL hs hb h
      rw [forEach_cons] at h
      obtain ⟨x3, w3, h3, h⟩ := Act.bind_eq_ok.1 h
      obtain ⟨L', hL', s3, b3⟩ := addQuote_given hsem hq hsize hs (L := L) (by simp) hb hL h3
      rw [Hello.set_last] at s3
      exact ih w3 w' L' hL' s3 b3 h
  obtain ⟨L, hL, s⟩ := key _ _ _ [] (by simp) s2 (createRelationship_began h2 b1) h
  exact ⟨L, ⟨sd, hL⟩, s⟩

/-! ### What the scripts build -/

theorem given_of {g : Blog.Parts (AnyGen σ)} {age : String} {quoted : Prop} {q : Population} {a y : Attribute}
    (hs : Lot env R [q] T k w) (hq : q.attributes = [("NAME", a), (age, y)]) (hne : "NAME" ≠ age)
    (ga : ∃ sd, ∀ i v, Holds a i v → MayGive env (g.names sd) v) (gy : ∃ sd, ∀ i v, Holds y i v → MayGive env (g.ages sd) v)
    (hL : quoted → ∃ L, R[0]? = some L ∧ ∃ sd, ∀ x ∈ L, MayGive env (g.quotes sd) (.scalar x.2.1)) :
    Given env g age quoted w := by
  refine ⟨fun i v hv => ?_, fun i v hv => ?_, fun hquoted o x hx => ?_⟩
  · obtain ⟨p, b, h1, h2, h3⟩ := hv
    rw [hs.pops] at h1
    cases h1
    rw [attributeOf, hq] at h2
    simp only [List.mem_cons, Prod.mk.injEq, List.not_mem_nil, or_false, true_and] at h2
    rcases h2 with rfl | ⟨e, -⟩
    · obtain ⟨sd, ga⟩ := ga
      exact ⟨sd, ga _ _ h3⟩
    · exact absurd e hne
  · obtain ⟨p, b, h1, h2, h3⟩ := hv
    rw [hs.pops] at h1
    cases h1
    rw [attributeOf, hq] at h2
    simp only [List.mem_cons, Prod.mk.injEq, List.not_mem_nil, or_false, true_and] at h2
    rcases h2 with ⟨e, -⟩ | rfl
    · exact absurd e.symm hne
    · obtain ⟨sd, gy⟩ := gy
      exact ⟨sd, gy _ _ h3⟩
  · obtain ⟨L, h1, sd, h2⟩ := hL hquoted
    obtain ⟨r, hr, hw⟩ := forall₂_at' hs.rels h1
    rw [relationsAt_of hr] at hx
    exact ⟨sd, h2 x ((hw.2 o).mem_iff.1 hx)⟩

/-- **C135** What a script of the presentation builds, when it succeeds: the names and the ages are those that their
generators gave, and so are the quotes of script 7. -/
theorem C135_given (hsem : env.sem = AnyGen.sem env.R) {n : Nat} {g : Blog.Parts (AnyGen σ)} {b : SeqGen} (hg : g.Usual b)
    {fmt : Int → Cell} {name : String} {seed start step : Int} (hnew : Circus.new env.R name seed start step = .ok c)
    {t : Slides.Talk} {ops : List (Op (World σ (AnyGen σ)))} (h : t.build env n g fmt c = .ok ops c') :
    Given env g "age" (t = .seven) c'.world := by
  have hlen : (idsFrom b n).length = n := Music.length_idsFrom _ _
  rw [Slides.Talk.build] at h
  obtain ⟨i, c1, h1, h⟩ := Act.bind_eq_ok.1 h
  obtain ⟨rfl, a, y, -, -, s1⟩ := Slides.createPersons_lot hsem hg hnew h1
  obtain ⟨q, a', y', hq, e1, e2, ga, gy⟩ := slides_given hsem hg hnew h1
  rw [s1.pops] at hq
  cases hq
  cases e1
  cases e2
  obtain ⟨x0, c0, h0, h⟩ := Act.bind_eq_ok.1 h
  obtain ⟨u0, h0', rfl⟩ := onWorld_ok h0
  obtain ⟨R, q, s0, hat, hrel, hQ⟩ : ∃ R q, Lot env R [q] [] (start, step) u0 ∧ q.attributes = [("NAME", a), ("age", y)] ∧
      (t = .seven → q.relationships.get? "quotes" = some 0) ∧ (t = .seven →
      ∃ L, R[0]? = some L ∧ ∃ sd, ∀ x ∈ L, MayGive env (g.quotes sd) (.scalar x.2.1)) := by
    by_cases h7 : t = .seven
    · subst h7
      obtain ⟨L, hL, s⟩ := addQuotes_given hsem rfl hlen s1 h0'
      exact ⟨[L], _, s, rfl, fun _ => rfl, fun _ => ⟨L, rfl, hL⟩⟩
    · have h0' : (pure () : Act _ _) c1.world = .ok x0 u0 := by
        revert h0' h7
        cases t <;> simp [Slides.addQuotes]
      obtain ⟨-, rfl⟩ := Act.pure_eq_ok.1 h0'
      exact ⟨[], _, s1, rfl, fun h => absurd h h7, fun h => absurd h h7⟩
  obtain ⟨own, c2, h2, h⟩ := Act.bind_eq_ok.1 h
  obtain ⟨rfl, s, -, -, s2, -⟩ := Slides.story_lot (c := { c1 with world := u0 }) hsem hg s0 h2
  obtain ⟨x, c3, h3, h⟩ := Act.bind_eq_ok.1 h
  obtain ⟨u3, h3', rfl⟩ := onWorld_ok h3
  obtain ⟨-, -, s3, -⟩ := Slides.cast_lot hg hrel s2 h3'
  obtain ⟨rfl, rfl⟩ := Act.pure_eq_ok.1 h
  exact given_of (w := u3) s3 hat (by decide) ga gy hQ

/-- **C131** What a script of the blog builds, when it succeeds: the names, the ages and the quotes are those that their
generators gave. -/
theorem C131_given (hsem : env.sem = AnyGen.sem env.R) {n : Nat} {g : Blog.Parts (AnyGen σ)} {b : SeqGen} (hg : g.Usual b)
    {fmt : Int → Cell} {name : String} {seed start step : Int} (hnew : Circus.new env.R name seed start step = .ok c)
    {p : Blog.Post} {ops : List (Op (World σ (AnyGen σ)))} (h : p.build env n g fmt c = .ok ops c') :
    Given env g "AGE" (p ≠ .three) c'.world := by
  have hlen : (idsFrom b n).length = n := Music.length_idsFrom _ _
  have first : ∀ {i : Nat} {c1 : Circus σ (AnyGen σ)}, Blog.createPersons env n g c = .ok i c1 → i = 0 ∧ ∃ a y,
      Lot env [] [⟨idsFrom b n, n, [("NAME", a), ("AGE", y)], []⟩] [] (start, step) c1.world ∧
      (∃ sd, ∀ i v, Holds a i v → MayGive env (g.names sd) v) ∧ ∃ sd, ∀ i v, Holds y i v → MayGive env (g.ages sd) v := by
    intro i c1 h1
    obtain ⟨rfl, a, y, -, -, -, s1⟩ := Blog.createPersons_lot hsem hg hnew h1
    obtain ⟨q, a', y', hq, e1, e2, ga, gy⟩ := blog_given hsem hg hnew h1
    rw [s1.pops] at hq
    cases hq
    cases e1
    cases e2
    exact ⟨rfl, a, y, s1, ga, gy⟩
  cases p with
  | three =>
    change Blog.threePost env n g fmt c = _ at h
    rw [Blog.threePost] at h
    obtain ⟨i, c1, h1, h⟩ := Act.bind_eq_ok.1 h
    obtain ⟨rfl, a, y, s1, ga, gy⟩ := first h1
    obtain ⟨own, c2, h2, h⟩ := Act.bind_eq_ok.1 h
    obtain ⟨rfl, s, -, -, s2, -⟩ := Blog.constant_lot s1 h2
    obtain ⟨r, c3, h3, h⟩ := Act.bind_eq_ok.1 h
    obtain ⟨u3, h3', rfl⟩ := onWorld_ok h3
    obtain ⟨s3, -, -⟩ := Blog.choiceIn_lot hg rfl s2 h3'
    obtain ⟨rfl, rfl⟩ := Act.pure_eq_ok.1 h
    exact given_of (w := u3) s3 rfl (by decide) ga gy fun h => absurd rfl h
  | four =>
    change Blog.fourPost env n g fmt c = _ at h
    rw [Blog.fourPost] at h
    obtain ⟨i, c1, h1, h⟩ := Act.bind_eq_ok.1 h
    obtain ⟨rfl, a, y, s1, ga, gy⟩ := first h1
    obtain ⟨x0, c0, h0, h⟩ := Act.bind_eq_ok.1 h
    obtain ⟨u0, h0', rfl⟩ := onWorld_ok h0
    obtain ⟨L, hL, s0⟩ := addQuotes_given hsem rfl hlen s1 h0'
    replace s0 : Lot env [L] [⟨idsFrom b n, n, [("NAME", a), ("AGE", y)], [("quotes", 0)]⟩] [] (start, step) u0 := s0
    obtain ⟨own, c2, h2, h⟩ := Act.bind_eq_ok.1 h
    obtain ⟨rfl, s, -, -, s2, -⟩ := Blog.constant_lot (c := { c1 with world := u0 }) s0 h2
    obtain ⟨rel, c4, h4, h⟩ := Act.bind_eq_ok.1 h
    obtain ⟨u4, h4', rfl⟩ := onWorld_ok h4
    obtain ⟨rfl, -⟩ := Blog.relNamed_lot rfl s2 h4'
    obtain ⟨r, c3, h3, h⟩ := Act.bind_eq_ok.1 h
    obtain ⟨u3, h3', rfl⟩ := onWorld_ok h3
    obtain ⟨s3, -, -⟩ := Blog.choiceIn_lot hg rfl s2 h3'
    obtain ⟨rfl, rfl⟩ := Act.pure_eq_ok.1 h
    exact given_of (w := u3) s3 rfl (by decide) ga gy fun _ => ⟨L, rfl, hL⟩
  | five =>
    change Blog.fivePost env n g fmt c = _ at h
    rw [Blog.fivePost] at h
    obtain ⟨i, c1, h1, h⟩ := Act.bind_eq_ok.1 h
    obtain ⟨rfl, a, y, s1, ga, gy⟩ := first h1
    obtain ⟨x0, c0, h0, h⟩ := Act.bind_eq_ok.1 h
    obtain ⟨u0, h0', rfl⟩ := onWorld_ok h0
    obtain ⟨L, hL, s0⟩ := addQuotes_given hsem rfl hlen s1 h0'
    replace s0 : Lot env [L] [⟨idsFrom b n, n, [("NAME", a), ("AGE", y)], [("quotes", 0)]⟩] [] (start, step) u0 := s0
    obtain ⟨⟨t, act⟩, c5, h5, h⟩ := Act.bind_eq_ok.1 h
    obtain ⟨u5, h5', rfl⟩ := onWorld_ok h5
    obtain ⟨s5, ⟨seed5, b5⟩, pr, x5, d5⟩ := Blog.addActivity_lot (w := u0) hg s0 h5'
    obtain ⟨own, c2, h2, h⟩ := Act.bind_eq_ok.1 h
    obtain ⟨rfl, s, -, -, s2, -⟩ := Blog.active_lot (c := { c1 with world := u5 }) hsem s5 b5 d5 h2
    obtain ⟨rel, c4, h4, h⟩ := Act.bind_eq_ok.1 h
    obtain ⟨u4, h4', rfl⟩ := onWorld_ok h4
    obtain ⟨rfl, -⟩ := Blog.relNamed_lot rfl s2 h4'
    obtain ⟨r, c3, h3, h⟩ := Act.bind_eq_ok.1 h
    obtain ⟨u3, h3', rfl⟩ := onWorld_ok h3
    obtain ⟨s3, -, -⟩ := Blog.choiceIn_lot hg rfl s2 h3'
    obtain ⟨rfl, rfl⟩ := Act.pure_eq_ok.1 h
    exact given_of (w := u3) s3 rfl (by decide) ga gy fun _ => ⟨L, rfl, hL⟩
  | six =>
    change Blog.sixPost env n g fmt c = _ at h
    rw [Blog.sixPost] at h
    obtain ⟨i, c1, h1, h⟩ := Act.bind_eq_ok.1 h
    obtain ⟨rfl, a, y, s1, ga, gy⟩ := first h1
    obtain ⟨x0, c0, h0, h⟩ := Act.bind_eq_ok.1 h
    obtain ⟨u0, h0', rfl⟩ := onWorld_ok h0
    obtain ⟨L, hL, s0⟩ := addQuotes_given hsem rfl hlen s1 h0'
    replace s0 : Lot env [L] [⟨idsFrom b n, n, [("NAME", a), ("AGE", y)], [("quotes", 0)]⟩] [] (start, step) u0 := s0
    obtain ⟨x6, c6, h6, h⟩ := Act.bind_eq_ok.1 h
    obtain ⟨u6, h6', rfl⟩ := onWorld_ok h6
    obtain ⟨M, -, s6⟩ := Blog.er_lot (w := u0) hg.graph rfl s0 h6'
    replace s6 : Lot env [L, M] [⟨idsFrom b n, n, [("NAME", a), ("AGE", y)], [("quotes", 0), ("friends", 1)]⟩] []
      (start, step) u6 := s6
    obtain ⟨⟨t, act⟩, c5, h5, h⟩ := Act.bind_eq_ok.1 h
    obtain ⟨u5, h5', rfl⟩ := onWorld_ok h5
    obtain ⟨s5, ⟨seed5, b5⟩, pr, x5, d5⟩ := Blog.addActivity_lot (w := u6) hg s6 h5'
    obtain ⟨own, c2, h2, h⟩ := Act.bind_eq_ok.1 h
    obtain ⟨rfl, s, -, -, s2, -⟩ := Blog.active_lot (c := { c1 with world := u5 }) hsem s5 b5 d5 h2
    obtain ⟨rel, c4, h4, h⟩ := Act.bind_eq_ok.1 h
    obtain ⟨u4, h4', rfl⟩ := onWorld_ok h4
    obtain ⟨rfl, -⟩ := Blog.relNamed_lot rfl s2 h4'
    obtain ⟨fr, c3, h3, h⟩ := Act.bind_eq_ok.1 h
    obtain ⟨u3, h3', rfl⟩ := onWorld_ok h3
    obtain ⟨rfl, -⟩ := Blog.relNamed_lot rfl s2 h3'
    obtain ⟨rfl, rfl⟩ := Act.pure_eq_ok.1 h
    exact given_of s2 rfl (by decide) ga gy fun _ => ⟨L, rfl, hL⟩

/-! ### What the records say -/

/-- **C131** In any run of what a script of the blog builds, the two names of a record were given by the generator of names,
and the message, from script 4 on, by the generator of sentences. -/
theorem C131_words (hsem : env.sem = AnyGen.sem env.R) {n : Nat} {g : Blog.Parts (AnyGen σ)} {b : SeqGen} (hg : g.Usual b)
    {fmt : Int → Cell} {name : String} {seed start step : Int} (hstep : 0 ≤ step)
    (hnew : Circus.new env.R name seed start step = .ok c) {p : Blog.Post} {ops : List (Op (World σ (AnyGen σ)))}
    (hbuild : p.build env n g fmt c = .ok ops c') {e1 e2 : List (Int × Event)} {d : Int} {j : Nat} {logs : Logs}
    (h : Played env [ops] c'.world (e1 ++ (d, .exec j logs) :: e2) w') :
    ∀ t ∈ tablesOf p.logId logs, ∀ i ∈ t.index,
      (∃ sd, MayGive env (g.names sd) (valueAt t i "EMITTER_NAME")) ∧
      (∃ sd, MayGive env (g.names sd) (valueAt t i "RECEIVER_NAME")) ∧
      (p ≠ .three → ∃ sd, MayGive env (g.quotes sd) (valueAt t i "MESSAGE")) := by
  obtain ⟨-, -, sc, rfl, -, k3, k4, -⟩ := Blog.C131_built hsem hg hstep hnew hbuild
  have G := C131_given hsem hg hnew hbuild
  rw [k3] at h
  intro t ht i hi
  have T := (Blog.C131_records hsem k4 h t ht).2 i hi
  obtain ⟨r, -, -, hr, -⟩ := T.other
  refine ⟨G.names _ _ T.emitter, G.names _ _ hr, fun h3 => ?_⟩
  obtain ⟨m, e, hm⟩ := T.quote h3
  obtain ⟨wt, hwt⟩ := (hm env.orders).1
  rw [e]
  exact G.quotes h3 _ _ hwt

/-- **C135** In any run of what a script of the presentation builds, the names that a record has were given by the generator
of names, and the message, from script 5 on, by the generator of sentences. -/
theorem C135_words (hsem : env.sem = AnyGen.sem env.R) {n : Nat} {g : Blog.Parts (AnyGen σ)} {b : SeqGen} (hg : g.Usual b)
    {fmt : Int → Cell} {name : String} {seed start step : Int} (hstep : 0 ≤ step)
    (hnew : Circus.new env.R name seed start step = .ok c) {t : Slides.Talk} {ops : List (Op (World σ (AnyGen σ)))}
    (hbuild : t.build env n g fmt c = .ok ops c') {e1 e2 : List (Int × Event)} {d : Int} {j : Nat} {logs : Logs}
    (h : Played env [ops] c'.world (e1 ++ (d, .exec j logs) :: e2) w') :
    ∀ x ∈ tablesOf "hello" logs, ∀ i ∈ x.index,
      ("EMITTER_NAME" ∈ t.fields → ∃ sd, MayGive env (g.names sd) (valueAt x i "EMITTER_NAME")) ∧
      ("RECEIVER_NAME" ∈ t.fields → ∃ sd, MayGive env (g.names sd) (valueAt x i "RECEIVER_NAME")) ∧
      (t ≠ .three → t ≠ .four → ∃ sd, MayGive env (g.quotes sd) (valueAt x i "MESSAGE")) := by
  obtain ⟨-, -, sc, rfl, -, k3, k4, -⟩ := Slides.C135_built hsem hg hstep hnew hbuild
  have G := C135_given hsem hg hnew hbuild
  rw [k3] at h
  intro x hx i hi
  have T := (Slides.C135_records hsem k4 h x hx).2 i hi
  refine ⟨fun he => G.names _ _ (T.emitter he), fun hr => ?_, fun h3 h4 => ?_⟩
  · obtain ⟨r, -, -, hv⟩ := T.other fun h3 => by simp [h3, Slides.Talk.fields] at hr
    exact G.names _ _ (hv hr)
  · by_cases h7 : sc.talk = .seven
    · obtain ⟨m, e, hm⟩ := T.quote h7
      obtain ⟨wt, hwt⟩ := (hm env.orders).1
      rw [e]
      exact G.quotes h7 _ _ hwt
    · refine T.sentence ?_
      revert h3 h4 h7
      cases sc.talk <;> simp

/-! ### The hypotheses are met: any script, with any number of persons and any seed -/

example (t : Slides.Talk) (n : Nat) (seed : Int) : ∃ c ops c', Circus.new exEnv.R "example" seed 0 (3600 * nsPerSec) = .ok c ∧
    t.build exEnv (n + 1) Blog.exParts Blog.exFmt c = .ok ops c' ∧ Given exEnv Blog.exParts "age" (t = .seven) c'.world := by
  obtain ⟨c, ops, c', s', h1, h2, -⟩ := Builds.C137_slides (env := exEnv) rfl (t := t) (n := n + 1) (fun _ => by omega)
    Blog.exUsual (fun _ => Builds.any (gives_choice rfl (by simp))) (fun _ => Builds.any (gives_uniform rfl))
    (fun _ => Builds.anyId (gives_choice rfl (by simp))) (fun _ _ => answers_cyclic rfl _) Blog.exFmt "example" seed 0
    (step := 3600 * nsPerSec) (by decide) exFmt (folder := ["logs"]) (SetOrder.dedup String) 1 0 0 false (fs := [([], .dir)])
    ⟨by decide +kernel, by simp [At]⟩ (by simp [At]) (by simp) (by simp [At]) (by simp [DepthBelow, At]) (by omega)
    (.inr (by simp [Absent, At]))
  exact ⟨c, ops, c', h1, h2, C135_given rfl Blog.exUsual h1 h2⟩

example (p : Blog.Post) (hp : p ≠ .six) (n : Nat) (seed : Int) : ∃ c ops c',
    Circus.new exEnv.R "example" seed 0 (3600 * nsPerSec) = .ok c ∧
    p.build exEnv (n + 1) Blog.exParts Blog.exFmt c = .ok ops c' ∧ Given exEnv Blog.exParts "AGE" (p ≠ .three) c'.world := by
  obtain ⟨c, ops, c', s', h1, h2, -⟩ := Builds.C137_blog (env := exEnv) rfl hp (n := n + 1) (by omega)
    Blog.exUsual (fun _ => Builds.any (gives_choice rfl (by simp))) (fun _ => Builds.any (gives_uniform rfl))
    (fun _ _ => Builds.anyId (gives_choice rfl (by simp))) (fun _ => answers_cyclic rfl _) Blog.exFmt "example" seed 0
    (step := 3600 * nsPerSec) (by decide) exFmt (folder := ["logs"]) (SetOrder.dedup String) 1 0 0 false (fs := [([], .dir)])
    ⟨by decide +kernel, by simp [At]⟩ (by simp [At]) (by simp) (by simp [At]) (by simp [DepthBelow, At]) (by omega)
    (.inr (by simp [Absent, At]))
  exact ⟨c, ops, c', h1, h2, C131_given rfl Blog.exUsual h1 h2⟩

end Firsts
end Trumania
