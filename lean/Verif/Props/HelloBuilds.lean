import Verif.Proofs.HelloBuilds
import Verif.Props.HelloRuns

/-!
# C138: the steps of examples/tutorial/example1.py never raise, from the creation of the circus to the end of the run
-/

namespace Trumania
namespace Builds
open Spec World Circus Cdr
open Shop (onWorld_ok)
open Hello (Weighted Lot Step)
variable {σ : Type} {env : Env σ (AnyGen σ)} {w w' : World σ (AnyGen σ)} {c c' : Circus σ (AnyGen σ)}

/-- the steps that have sites, friends -/
def HasSites (st : Step) : Prop := st ≠ .one ∧ st ≠ .two ∧ st ≠ .three
def HasFriends (st : Step) : Prop := st = .six ∨ st = .seven

/-- **C138** The construction of a step never raises, if the names are always given, if there is a site (steps 4 to 7), if
the popularities are always numbers and the network of friends has an edge (steps 6 and 7). The popularities are then
values that their generator gives. -/
theorem C138_hello_build (hsem : env.sem = AnyGen.sem env.R) {st : Step} {p : Hello.Params}
    (hsites : HasSites st → 0 < p.nSites) {g : Hello.Parts (AnyGen σ)} {b : SeqGen} (hg : g.Usual b)
    (hnames : ∀ seed, AlwaysGives env (g.names seed) fun _ => True) {V : Cell → Prop} (hV : ∀ x, V x → ∃ q, x = .num q)
    (hpop : HasFriends st → ∀ seed, AlwaysGives env (g.popularity seed) V)
    (hfriends : HasFriends st → 0 < p.nPersons → Friendly g p.nPersons) (fmt : Int → Cell)
    {name : String} {seed start step : Int} (hnew : Circus.new env.R name seed start step = .ok c) :
    ∃ ops c', st.build env p g fmt c = .ok ops c' ∧ (HasFriends st → ∀ q a, c'.world.pops[0]? = some q →
      attributeOf q "POPULARITY" a → ∀ i x, Holds a i x → V x) := by
  have hlen : (idsFrom b p.nPersons).length = p.nPersons := Music.length_idsFrom _ _
  -- the persons and their names
  obtain ⟨i, c1, h1⟩ := ends_persons (p := p) hsem hg hnew
  obtain ⟨rfl, s1⟩ := Hello.createPersons_lot hsem hg hnew h1
  obtain ⟨u2, c2, h2⟩ := Ends.onWorld (ends_addAttribute (pop := 0) (w := c1.world) (name := "NAME") (mk := g.names)
    (by rw [s1.pops]; rfl) hlen hnames)
  obtain ⟨-, a, -, s2⟩ := Hello.named_lot hsem hg hnew h1 h2
  have h45 : st = .four ∨ st = .five → ∃ ops c', Hello.step45 env st p g fmt c = .ok ops c' := by
    intro hst
    have hs : 0 < p.nSites := hsites (by rcases hst with rfl | rfl <;> simp [HasSites])
    show Ends _ c
    rw [Hello.step45]
    refine Ends.bind ⟨_, _, h1⟩ fun x y e => ?_
    rw [h1] at e
    cases e
    refine Ends.bind ⟨_, _, h2⟩ fun x y e => ?_
    rw [h2] at e
    cases e
    refine (Ends.onWorld (ends_addSites hsem hg hs rfl hlen s2)).bind fun r c3 h3 => ?_
    obtain ⟨u3, h3', rfl⟩ := onWorld_ok h3
    obtain ⟨rfl, L, -, s3⟩ := Hello.addSites_lot hsem hg rfl hlen s2 h3'
    refine (ends_story (c := { c2 with world := u3 }) (by exact hlen) s3).bind fun own c4 h4 => ?_
    exact (Ends.onWorld (ends_seeded _ _)).bind fun _ _ _ => Ends.pure
  have h67 : HasFriends st → ∃ ops c', Hello.step67 env st p g fmt c = .ok ops c' ∧ ∀ q a, c'.world.pops[0]? = some q →
      attributeOf q "POPULARITY" a → ∀ i x, Holds a i x → V x := by
    intro hst
    have hs : 0 < p.nSites := hsites (by rcases hst with rfl | rfl <;> simp [HasSites])
    obtain ⟨u3, c3, h3⟩ := Ends.onWorld (ends_addAttribute (pop := 0) (w := c2.world) (name := "POPULARITY") (mk := g.popularity)
      (by rw [s2.pops]; rfl) hlen (hpop hst))
    obtain ⟨w3, h3', rfl⟩ := onWorld_ok h3
    obtain ⟨y, values, hy, hyV, s3⟩ := addAttribute_values rfl hlen (hpop hst) s2 h3'
    replace s3 : Lot env [] [⟨idsFrom b p.nPersons, p.nPersons, [("NAME", a), ("POPULARITY", y)], []⟩] []
      (start, step) w3 := s3
    obtain ⟨u4, c4, h4⟩ := Ends.onWorld (c := { c2 with world := w3 })
      (ends_addSites (pop := 0) (weights := Hello.siteWeights st) (w := w3) hsem hg hs rfl (by exact hlen) s3)
    obtain ⟨w4, h4', rfl⟩ := onWorld_ok h4
    obtain ⟨rfl, L, -, s4⟩ := Hello.addSites_lot (w := w3) hsem hg rfl hlen s3 h4'
    replace s4 : Lot env [L] [⟨idsFrom b p.nPersons, p.nPersons, [("NAME", a), ("POPULARITY", y)], [("sites", 0)]⟩] []
      (start, step) w4 := s4
    obtain ⟨u5, c5, h5⟩ := Ends.onWorld (c := { c2 with world := w4 })
      (ends_addFriends (g := g) (pop := 0) (w := w4) rfl (fun hne => by
        show Friendly g (idsFrom b p.nPersons).length
        rw [hlen]
        refine hfriends hst (Nat.pos_of_ne_zero fun h0 => hne ?_)
        exact List.length_eq_zero_iff.1 (hlen.trans h0)) s4)
    obtain ⟨w5, h5', rfl⟩ := onWorld_ok h5
    obtain ⟨rfl, M, -, s5⟩ := Hello.addFriends_lot (w := w4) rfl s4 h5'
    replace s5 : Lot env [L, M] [⟨idsFrom b p.nPersons, p.nPersons, [("NAME", a), ("POPULARITY", y)],
      [("sites", 0), ("friends", 1)]⟩] [] (start, step) w5 := s5
    obtain ⟨own, c6, h6⟩ := ends_story (c := { c2 with world := w5 }) (by exact hlen) s5
    obtain ⟨-, s, -, s6, -⟩ := Hello.createStory_lot (c := { c2 with world := w5 }) s5 h6
    obtain ⟨d, c7, h7⟩ := Ends.onWorld (c := c6) (ends_seeded (env := env) g.durations c6.world)
    obtain ⟨w7, h7', rfl⟩ := onWorld_ok h7
    have s7 := Hello.lot_seeded s6 h7'
    obtain ⟨ws, c8, h8⟩ := Ends.onWorld (c := { c6 with world := w7 }) (ends_popularities (w := w7) (pop := 0) rfl (a := y)
      rfl (fun i x hx => hV x (hyV i x hx)) s7)
    obtain ⟨w8, h8', rfl⟩ := onWorld_ok h8
    have hrun : ∃ ops, Hello.step67 env st p g fmt c = .ok ops { c6 with world := w8 } := by
      exact ⟨_, by
        rw [Hello.step67, Act.bind_ok h1, Act.bind_ok h2, Act.bind_ok h3, Act.bind_ok h4, Act.bind_ok h5, Act.bind_ok h6,
          Act.bind_ok h7, Act.bind_ok h8]
        rfl⟩
    obtain ⟨ops, hrun⟩ := hrun
    refine ⟨ops, _, hrun, ?_⟩
    · have e8 : w8 = w7 := by
        rw [Hello.popularities] at h8'
        obtain ⟨q, v1, k1, k⟩ := Act.bind_eq_ok.1 h8'
        obtain ⟨-, rfl⟩ := getPop_eq_ok.1 k1
        obtain ⟨q, v2, k2, k⟩ := Act.bind_eq_ok.1 k
        obtain ⟨-, rfl⟩ := Act.ofPy_eq_ok.1 k2
        exact (Act.ofPy_eq_ok.1 k).2.symm
      intro q z hq hz i x hx
      change w8.pops[0]? = some q at hq
      rw [e8, s7.pops] at hq
      cases hq
      have : z = y := by simpa [attributeOf] using hz
      exact hyV i x (this ▸ hx)
  cases st with
  | one =>
    obtain ⟨own, c3, h3⟩ := ends_story (c := c1) (by exact hlen) s1
    exact ⟨_, _, by
      change Hello.step1 env p g fmt c = _
      rw [Hello.step1, Act.bind_ok h1, Act.bind_ok h3]
      rfl, by simp [HasFriends]⟩
  | two =>
    obtain ⟨own, c3, h3⟩ := ends_story (c := c2) (by exact hlen) s2
    exact ⟨_, _, by
      change Hello.step2 env p g fmt c = _
      rw [Hello.step2, Act.bind_ok h1, Act.bind_ok h2, Act.bind_ok h3]
      rfl, by simp [HasFriends]⟩
  | three =>
    obtain ⟨own, c3, h3⟩ := ends_story (c := c2) (by exact hlen) s2
    obtain ⟨d, c4, h4⟩ := Ends.onWorld (c := c3) (ends_seeded (env := env) g.durations c3.world)
    obtain ⟨e, c5, h5⟩ := Ends.onWorld (c := c4) (ends_seeded (env := env) (g.choice (Hello.sites p g)) c4.world)
    exact ⟨_, _, by
      change Hello.step3 env p g fmt c = _
      rw [Hello.step3, Act.bind_ok h1, Act.bind_ok h2, Act.bind_ok h3, Act.bind_ok h4, Act.bind_ok h5]
      rfl, by simp [HasFriends]⟩
  | four =>
    obtain ⟨ops, c', h⟩ := h45 (.inl rfl)
    exact ⟨ops, c', h, by simp [HasFriends]⟩
  | five =>
    obtain ⟨ops, c', h⟩ := h45 (.inr rfl)
    exact ⟨ops, c', h, by simp [HasFriends]⟩
  | six =>
    obtain ⟨ops, c', h, hv⟩ := h67 (.inl rfl)
    exact ⟨ops, c', h, fun _ => hv⟩
  | seven =>
    obtain ⟨ops, c', h, hv⟩ := h67 (.inr rfl)
    exact ⟨ops, c', h, fun _ => hv⟩

/-- **C138** A step never raises, from the creation of the circus to the end of its run, if there is a site, if moreover the
durations are always given and the popularities are positive. -/
theorem C138_hello (hsem : env.sem = AnyGen.sem env.R) {st : Step} {p : Hello.Params} (hsites : 0 < p.nSites)
    {g : Hello.Parts (AnyGen σ)} {b : SeqGen} (hg : g.Usual b)
    (hnames : ∀ seed, AlwaysGives env (g.names seed) fun _ => True)
    (hd : ∀ seed, AlwaysGives env (g.durations seed) IsAmount)
    (hpop : HasFriends st → ∀ seed, AlwaysGives env (g.popularity seed) fun x => ∃ q, x = .num q ∧ 0 < q)
    (hfriends : HasFriends st → 0 < p.nPersons → Friendly g p.nPersons) (fmt : Int → Cell)
    (name : String) (seed start : Int) {step : Int} (hstep : nsPerSec ≤ step)
    (text : Cell → Text) {folder : Path} (so : SetOrder String) (fuel d : Nat) (duration : Int) (delete : Bool) {fs : FS}
    (htree : Tree fs) (hroot : At fs [] .dir) (hne : folder ≠ [])
    (hc : ∀ q t, Below q folder → At fs q (.file t) → q = folder) (hdepth : DepthBelow fs folder d) (hfuel : d < fuel)
    (hdel : delete = true ∨ Absent fs folder) :
    ∃ c ops c' s', Circus.new env.R name seed start step = .ok c ∧ st.build env p g fmt c = .ok ops c' ∧
      Sys.run env text folder so fuel [ops] duration delete ⟨c', fs⟩ = .ok () s' := by
  obtain ⟨c, hnew⟩ := new_ends_ok env name seed start step
  obtain ⟨ops, c', hbuild, hlike⟩ := C138_hello_build hsem (fun _ => hsites) hg hnames
    (fun x ⟨q, e, _⟩ => ⟨q, e⟩) hpop hfriends fmt hnew
  obtain ⟨s', h⟩ := Hello.C132_hello_runs hsem hsites hg hd hstep hnew hbuild (fun hst q a hq ha i x hx => by
    obtain ⟨q, e, hq⟩ := hlike hst q a hq ha i _ hx
    cases e
    exact hq) (text := text) so fuel d duration delete htree hroot hne hc hdepth hfuel hdel
  exact ⟨c, ops, c', s', hnew, hbuild, h⟩

/-- **C138** Steps 6 and 7 are never built with persons between whom the network of friends has no edge. -/
theorem C138_no_friends (hsem : env.sem = AnyGen.sem env.R) {st : Step} (hst : HasFriends st) {p : Hello.Params}
    (hp : 0 < p.nPersons) {g : Hello.Parts (AnyGen σ)} {b : SeqGen} (hg : g.Usual b)
    (hgr : ∀ seed, g.graph p.nPersons p.nPersons (5/1000) seed = []) (fmt : Int → Cell)
    {name : String} {seed start step : Int} (hnew : Circus.new env.R name seed start step = .ok c)
    (ops : List (Op (World σ (AnyGen σ)))) : st.build env p g fmt c ≠ .ok ops c' := by
  have hlen : (idsFrom b p.nPersons).length = p.nPersons := Music.length_idsFrom _ _
  intro h
  replace h : Hello.step67 env st p g fmt c = .ok ops c' := by rcases hst with rfl | rfl <;> exact h
  rw [Hello.step67] at h
  obtain ⟨i, c1, h1, h⟩ := Act.bind_eq_ok.1 h
  obtain ⟨u, c2, h2, h⟩ := Act.bind_eq_ok.1 h
  obtain ⟨rfl, a, ha, s2⟩ := Hello.named_lot hsem hg hnew h1 h2
  obtain ⟨u0, c0, h0, h⟩ := Act.bind_eq_ok.1 h
  obtain ⟨w0, h0', rfl⟩ := onWorld_ok h0
  obtain ⟨q, y, values, hq, hy, s0⟩ := Hello.addAttribute_lot s2 h0'
  cases hq
  obtain ⟨r, c3, h3, h⟩ := Act.bind_eq_ok.1 h
  obtain ⟨u3, h3', rfl⟩ := onWorld_ok h3
  obtain ⟨rfl, L, hL, s3⟩ := Hello.addSites_lot (w := w0) hsem hg rfl (by exact hlen) s0 h3'
  obtain ⟨r', c6, h6, -⟩ := Act.bind_eq_ok.1 h
  obtain ⟨u6, h6', rfl⟩ := onWorld_ok h6
  rw [Hello.addFriends] at h6'
  obtain ⟨rel, w1, k1, k⟩ := Act.bind_eq_ok.1 h6'
  obtain ⟨p', hp', rfl, s4, -⟩ := Hello.lot_createRelationship (w := u3) s3 k1
  cases hp'
  obtain ⟨sd, w2, k2, k⟩ := Act.bind_eq_ok.1 k
  have s5 := Hello.lot_drawSeed s4 k2
  obtain ⟨q, w3, k3, k⟩ := Act.bind_eq_ok.1 k
  obtain ⟨hq, rfl⟩ := getPop_eq_ok.1 k3
  rw [s5.pops] at hq
  cases hq
  obtain ⟨pairs, w4, k4, -⟩ := Act.bind_eq_ok.1 k
  obtain ⟨k5, -⟩ := Act.ofPy_eq_ok.1 k4
  change make_random_bipartite_data (idsFrom b p.nPersons) (idsFrom b p.nPersons) (5/1000)
    (g.graph (idsFrom b p.nPersons).length (idsFrom b p.nPersons).length (5/1000) sd) = .ok pairs at k5
  rw [hlen, hgr, make_random_bipartite_data, if_neg (by rw [hlen]; norm_num; omega), if_pos rfl] at k5
  cases k5

/-! ### Non-vacuity -/

/-- popularities that are positive -/
def exLoved : Hello.Parts (AnyGen Nat) :=
  { Hello.exParts with
    popularity := fun seed => .choice [.num 1, .num 2] none (Rng.counter.seed seed)
    graph := fun n _ _ _ => [(0, n)] }

/-- any step, with any number of persons and of sites, any seed and any duration -/
example (st : Step) (n m : Nat) (seed duration : Int) : ∃ c ops c' s',
    Circus.new exEnv.R "hello" seed 0 (3600 * nsPerSec) = .ok c ∧
      st.build exEnv ⟨n + 1, m + 1⟩ exLoved Hello.exFmt c = .ok ops c' ∧
      Sys.run exEnv exFmt ["logs"] (SetOrder.dedup String) 1 [ops] duration false ⟨c', [([], .dir)]⟩ = .ok () s' :=
  C138_hello (env := exEnv) rfl (Nat.succ_pos m) (b := ⟨0, "PERSON_", 3⟩) ⟨rfl, fun _ _ => ⟨_, rfl⟩⟩
    (fun _ x hx k => by
      obtain ⟨cells, x', k1, k2, -⟩ := gives_choice (env := exEnv) rfl (a := [.str "A", .str "B"]) (by simp) x hx k
      exact ⟨cells, x', k1, k2, fun _ _ => trivial⟩)
    (fun _ => gives_uniform rfl)
    (fun _ _ x hx k => by
      obtain ⟨cells, x', k1, k2, k3⟩ := gives_choice (env := exEnv) rfl (a := [.num 1, .num 2]) (by simp) x hx k
      refine ⟨cells, x', k1, k2, fun z hz => ?_⟩
      obtain ⟨v, rfl, hv⟩ := k3 z hz
      simp only [List.mem_cons, List.not_mem_nil, or_false] at hv
      rcases hv with rfl | rfl
      · exact ⟨1, rfl, by norm_num⟩
      · exact ⟨2, rfl, by norm_num⟩)
    (fun _ _ seed => ⟨⟨by simp [exLoved], by simp [exLoved], by simp [exLoved], by simp [exLoved]⟩, by simp [exLoved]⟩) _ _ _ _
    (by decide) _ _ _ 0 _ _ ⟨by decide +kernel, by simp [At]⟩
    (by simp [At]) (by simp) (by simp [At]) (by simp [DepthBelow, At]) (by omega) (.inr (by simp [Absent, At]))

end Builds
end Trumania
