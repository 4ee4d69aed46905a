import Verif.Proofs.ShopEarly
import Verif.Props.Reports

/-!
# C125: what the reports of the first steps of examples/tutorial/example2.py tell
-/

namespace Trumania
namespace Shop
open Spec World Circus Cdr
variable {σ : Type} {env : Env σ (AnyGen σ)} {w w' : World σ (AnyGen σ)} {vols : List Val} {k : Supply}
  {evs : List (Int × Event)} {day : Int → Cell} {c c' : Circus σ (AnyGen σ)}

theorem SumOf.append {pos : Val} {l m : Logs} {x y : Nat} (h1 : SumOf vols pos l x) (h2 : SumOf vols pos m y) :
    SumOf vols pos (l ++ m) (x + y) := by
  obtain ⟨a, a1, a2, rfl⟩ := h1
  obtain ⟨b, b1, b2, rfl⟩ := h2
  refine ⟨a ++ b, fun x hx => (List.mem_append.1 hx).elim (a1 x) (b1 x), ?_, by simp⟩
  rw [List.length_append, a2, b2, restocksOf_append]

/-- what holds throughout a run -/
structure Onwards (env : Env σ (AnyGen σ)) (k : Supply) (vols : List Val) (w w' : World σ (AnyGen σ))
    (logs : Logs) : Prop where
  stands : Stands env k vols w'
  level : ∀ o pos, ∃ n, SumOf vols pos logs n ∧ held o w' 0 pos = held o w 0 pos + n
  told : ∀ v, k = .told v → ∀ o pos, (held o w' 0 pos : Rat) = held o w 0 pos + deliveredTo pos logs
  items : ∀ a, w.gens[4]? = some (.seq a) → ∃ n : Nat,
    w'.gens[4]? = some (.seq { a with counter := a.counter + (n : Nat) }) ∧
    ∀ o, ((stockAt o w' 0).map Prod.snd).Perm ((stockAt o w 0).map Prod.snd ++ idsFrom a n)

theorem onwards (hsem : env.sem = AnyGen.sem env.R) (hvols : ∀ x ∈ vols, ∃ n : Nat, x = .num (n : Rat))
    (h : Played env (k.chains env day) w evs w') (hw : Stands env k vols w) :
    Onwards env k vols w w' (emitted evs) := by
  induction h with
  | nil w =>
    refine ⟨hw, fun o pos => ⟨0, ⟨[], by simp, rfl, rfl⟩, rfl⟩, fun v _ o pos => ?_, fun a ha => ⟨0, ?_, fun o => ?_⟩⟩
    · simp [deliveredTo, emitted, tablesOf, volumeIn]
    · simpa using ha
    · simp [idsFrom]
  | @exec w w1 w' l i ops logs hi h rest ih =>
    have ih := ih (exec_stands hsem hvols hw hi h)
    have e : emitted ((w.clock.current, Event.exec i logs) :: l) = logs ++ emitted l := rfl
    have hh := fun o => grew_of hsem hvols hw hi h o
    refine ⟨ih.stands, fun o pos => ?_, fun v hk o pos => ?_, fun a ha => ?_⟩
    · obtain ⟨given, hh⟩ := hh o
      obtain ⟨n, hn, e1⟩ := ih.level o pos
      refine ⟨countFor pos given + n, ?_, ?_⟩
      · rw [e]
        exact SumOf.append (hh.sums pos) hn
      · rw [e1, held_perm hh.items, Nat.add_assoc]
    · obtain ⟨given, hh⟩ := hh o
      rw [ih.told v hk, e, deliveredTo_append, held_perm hh.items]
      have := hh.told v hk pos
      change deliveredTo pos logs = _ at this
      rw [this]
      push_cast
      ring
    · obtain ⟨given, h0⟩ := hh env.orders
      obtain ⟨n, g, hn⟩ := ih.items _ (h0.fresh a ha).2
      refine ⟨given.length + n, ?_, fun o => ?_⟩
      · rw [g]
        simp [add_assoc]
      · obtain ⟨given', h1⟩ := hh o
        have hlen : given'.length = given.length := by
          have := (h1.fresh a ha).2.symm.trans (h0.fresh a ha).2
          simpa using this
        refine (hn o).trans ?_
        rw [idsFrom_append, ← List.append_assoc, ← hlen, ← (h1.fresh a ha).1, ← List.map_append]
        exact (h1.items.map _).append_right _
  | @tick w w' l rest ih =>
    obtain ⟨hw1, hg⟩ := tick_stands hsem hw
    have ih := ih hw1
    exact ⟨ih.stands, ih.level, ih.told, fun a ha => ih.items a (hg a ha)⟩

/-! ### Stocks and reports -/

/-- **C125** In any run of the stories of steps 1 to 3bis: a point of sale has the items of the beginning, plus the
total of as many volumes as there are restocks of it in the log, each of them among those that the generator chooses
from. If the volumes are logged (step 3), this total is that of the logged volumes. -/
theorem C125_level (hsem : env.sem = AnyGen.sem env.R) (hvols : ∀ x ∈ vols, ∃ n : Nat, x = .num (n : Rat))
    (h : Played env (k.chains env day) w evs w') (hw : Stands env k vols w) (o : Orders) (pos : Val) :
    (∃ n, SumOf vols pos (emitted evs) n ∧ held o w' 0 pos = held o w 0 pos + n) ∧
    ∀ v, k = .told v → (held o w' 0 pos : Rat) = held o w 0 pos + deliveredTo pos (emitted evs) :=
  ⟨(onwards hsem hvols h hw).level o pos, fun v hk => (onwards hsem hvols h hw).told v hk o pos⟩

/-- **C125** Each report tells of this level, according to the logs written before it. -/
theorem C125_reports (hsem : env.sem = AnyGen.sem env.R) (hvols : ∀ x ∈ vols, ∃ n : Nat, x = .num (n : Rat))
    {e1 e2 : List (Int × Event)} {d : Int} {j : Nat} {logs : Logs}
    (h : Played env (k.chains env day) w (e1 ++ (d, .exec j logs) :: e2) w') (hw : Stands env k vols w) (o : Orders) :
    ∀ t ∈ tablesOf "report" logs, ∀ r ∈ t.rows, ∃ pos, cell t r "POS_ID" = .scalar pos ∧ ∃ n,
      SumOf vols pos (emitted e1) n ∧ cell t r "STOCK_LEVEL" = .num ((held o w 0 pos + n : Nat) : Rat) ∧
      ∀ v, k = .told v → cell t r "STOCK_LEVEL" = .num ((held o w 0 pos : Rat) + deliveredTo pos (emitted e1)) := by
  obtain ⟨u, u', ops, h1, hi, hx, -, -⟩ := played_at h rfl
  have ht := onwards hsem hvols h1 hw
  obtain ⟨given, hh⟩ := grew_of hsem hvols ht.stands hi hx o
  intro t hm r hr
  obtain ⟨k1, k2⟩ := (hh.reports t hm).2 r hr
  obtain ⟨n, hn, e⟩ := ht.level o r.idx
  exact ⟨r.idx, k1, n, hn, by rw [k2, e], fun v hk => by rw [k2, ht.told v hk]⟩

/-- **C125** If the points of sale have, once each, the ids that were drawn so far, they still do after any run. -/
theorem C125_items (hsem : env.sem = AnyGen.sem env.R) (hvols : ∀ x ∈ vols, ∃ n : Nat, x = .num (n : Rat))
    (h : Played env (k.chains env day) w evs w') (hw : Stands env k vols w) {a : SeqGen} {m : Nat}
    (hg : w.gens[4]? = some (.seq { a with counter := a.counter + m })) (o : Orders)
    (hp : ((stockAt o w 0).map Prod.snd).Perm (idsFrom a m)) : ∃ n : Nat,
      ((stockAt o w' 0).map Prod.snd).Perm (idsFrom a (m + n)) ∧ ((stockAt o w' 0).map Prod.snd).Nodup := by
  obtain ⟨n, -, hn⟩ := (onwards hsem hvols h hw).items _ hg
  have : ((stockAt o w' 0).map Prod.snd).Perm (idsFrom a (m + n)) := by
    rw [idsFrom_append]
    exact (hn o).trans (hp.append_right _)
  exact ⟨n, this, this.nodup_iff.2 (idsFrom_nodup _ _)⟩

/-! ### What is built -/

/-- what a step has in the beginning: `n` items for each of the points of sale `ids`, which are the first ids of `a`
-/
structure Starting (env : Env σ (AnyGen σ)) (k : Supply) (a : SeqGen) (vols ids : List Val) (n : Nat)
    (w : World σ (AnyGen σ)) : Prop where
  stands : Stands env k vols w
  stocked : ∀ o, ∀ pos ∈ ids, held o w 0 pos = n
  empty : ∀ o pos, pos ∉ ids → held o w 0 pos = 0
  all : ∀ o, ((stockAt o w 0).map Prod.snd).Perm (idsFrom a (ids.length * n))
  next : k.volumes ≠ none → w.gens[4]? = some (.seq { a with counter := a.counter + (ids.length * n : Nat) })

theorem starting_of {L : List (Val × Val)} {q : Population} {S : List (String × String)} {D G : Dict String Nat} {n : Nat}
    {a : SeqGen} {arrays : List (List Val)} (hL : L = (q.ids.zip arrays).flatMap fun x => x.2.map fun y => (x.1, y))
    (ha1 : arrays.map List.length = q.ids.map (fun _ => n)) (ha2 : arrays.flatten = idsFrom a (q.ids.length * n))
    (hs : Site env [L] [q] S D G c) (hS : ∀ x ∈ S, x.2 = "POS_ID") (hnt : NoTimerUses 4 c.world)
    (hg : k.volumes ≠ none →
      c.world.gens[4]? = some (.seq { a with counter := a.counter + (q.ids.length * n : Nat) }))
    (hv : ∀ v, k.volumes = some v → v ≠ 4 ∧ ∃ p r, Began env c.world (.ref v) (.choice vols p r)) :
    Starting env k a vols q.ids n c.world := by
  have r0 := stage_stock hs.stage (i := 0) rfl
  obtain ⟨z1, z2, z3⟩ := zip_items ha1
  rw [← hL] at z1 z2 z3
  have hq := hs.stage.wf q (by simp)
  have hh : ∀ o pos, held o c.world 0 pos = countFor pos L := fun o pos => (r0.2 o).countP_eq _
  refine ⟨⟨hs.stage.pops ▸ hs.stage.wf, hs.stage.ids, fun s hs' => ?_, ?_, hnt, fun hk => ⟨_, hg hk⟩, hv⟩,
    fun o pos hpos => ?_, fun o pos hpos => ?_, fun o => ?_, hg⟩
  · refine hS (s.name, s.idField) ?_
    rw [← hs.stage.stories]
    exact List.mem_map_of_mem (f := fun s : Story σ => (s.name, s.idField)) hs'
  · intro i hi
    obtain rfl := List.mem_singleton.1 hi
    exact r0.1
  · rw [hh]
    exact z2 hq.ids pos hpos
  · rw [hh]
    exact z3 pos hpos
  · rw [← ha2, ← z1]
    exact (r0.2 o).map _

/-- the number of items in the beginning, and how the points of sale are restocked -/
def Step.supply (p : Params) : Step → Option (Nat × Supply)
  | .one => some (0, .none)
  | .two => some (p.nItems, .none)
  | .three => some (p.nItems, .told 6)
  | .threeBis => some (p.nItems, .untold 6)
  | .four => none
  | .five => none

/-- **C125** Steps 1 to 3bis, when they succeed: in step 1 the points of sale have no items, in the others the given
number each. -/
theorem C125_built (hsem : env.sem = AnyGen.sem env.R) {p : Params} {g : Parts (AnyGen σ)} {b a : SeqGen} {vols : List Val}
    {f : Rat → Rat} (hu : g.Usual b a vols f) {time : Int → Cell} {name : String} {seed start step : Int}
    (hnew : Circus.new env.R name seed start step = .ok c) {st : Step} {n : Nat} {k : Supply}
    (hst : st.supply p = some (n, k)) {chains : List (List (Op (World σ (AnyGen σ))))}
    (h : st.build env p g day time c = .ok chains c') :
    chains = k.chains env day ∧ Starting env k a vols (idsFrom b p.nPos) n c'.world := by
  have hb := hu.posIds
  have ha := hu.items
  obtain ⟨s0, l0, m0, -, -⟩ := new_site (env := env) hnew
  cases st with
  | one =>
    cases hst
    change step1 env p g day c = _ at h
    rw [step1] at h
    obtain ⟨u1, c1, h1, h⟩ := Act.bind_eq_ok.1 h
    obtain ⟨ops4, c4, h4, h⟩ := Act.bind_eq_ok.1 h
    obtain ⟨rfl, rfl⟩ := Act.pure_eq_ok.1 h
    obtain ⟨ids, x1, x2, x3, hids, s1, a1, -⟩ := createPos_site s0 l0 h1
    have hids : ids = idsFrom b p.nPos := by
      rcases hids with ⟨e, rfl⟩ | ⟨cells, x, k1, k2⟩
      · rw [e]
        rfl
      · rw [hb] at k1
        exact (Snd.seq_drawn hsem k1 k2).1
    obtain ⟨rfl, s4, a4, -⟩ := addReport_site rfl s1 h4
    refine ⟨rfl, ?_⟩
    rw [← hids]
    refine starting_of (arrays := ids.map fun _ => []) ?_ (by simp) (by simp [idsFrom]) s4 (by simp)
      (after_noTimer (a1.trans a4) (by simp [NoTimerUses, m0])) (by simp [Supply.volumes]) (by simp [Supply.volumes])
    symm
    rw [List.flatMap_eq_nil_iff]
    rintro ⟨i, l⟩ hm
    have := (List.of_mem_zip hm).2
    rw [List.mem_map] at this
    obtain ⟨_, -, rfl⟩ := this
    rfl
  | two =>
    cases hst
    change step2 env p g day c = _ at h
    rw [step2] at h
    obtain ⟨u1, c1, h1, h⟩ := Act.bind_eq_ok.1 h
    obtain ⟨u2, c2, h2, h⟩ := Act.bind_eq_ok.1 h
    obtain ⟨ops4, c4, h4, h⟩ := Act.bind_eq_ok.1 h
    obtain ⟨rfl, rfl⟩ := Act.pure_eq_ok.1 h
    obtain ⟨q, arrays, hq, hids, ha1, ha2, s2, -, m2, -, -⟩ := stocked_site hsem hb ha hnew h1 h2
    obtain ⟨rfl, s4, a4, -⟩ := addReport_site hq s2 h4
    refine ⟨rfl, ?_⟩
    rw [← hids]
    exact starting_of rfl ha1 ha2 s4 (by simp)
      (after_noTimer a4 (by simp [NoTimerUses, m2])) (by simp [Supply.volumes]) (by simp [Supply.volumes])
  | three =>
    cases hst
    change step3 env p g day c = _ at h
    rw [step3] at h
    obtain ⟨u1, c1, h1, h⟩ := Act.bind_eq_ok.1 h
    obtain ⟨u2, c2, h2, h⟩ := Act.bind_eq_ok.1 h
    obtain ⟨ops3, c3, h3, h⟩ := Act.bind_eq_ok.1 h
    obtain ⟨ops4, c4, h4, h⟩ := Act.bind_eq_ok.1 h
    obtain ⟨rfl, rfl⟩ := Act.pure_eq_ok.1 h
    obtain ⟨q, arrays, hq, hids, ha1, ha2, s2, l2, m2, g2, -⟩ := stocked_site hsem hb ha hnew h1 h2
    obtain ⟨rfl, s3, a3, -, sd, b3⟩ := addPeriodic_site hq s2 l2 h3
    obtain ⟨rfl, s4, a4, -⟩ := addReport_site hq s3 h4
    refine ⟨rfl, ?_⟩
    rw [← hids]
    have a34 := a3.trans a4
    obtain ⟨vp, vr, hv⟩ := hu.volumes sd
    rw [hv] at b3
    exact starting_of rfl ha1 ha2 s4 (by simp) (after_noTimer a34 (by simp [NoTimerUses, m2]))
      (fun _ => (after_kept a34 (by omega)).trans g2) (fun v hv => by
        cases hv
        exact ⟨by decide, _, _, a4.began b3⟩)
  | threeBis =>
    cases hst
    change step3bis env p g day c = _ at h
    rw [step3bis] at h
    obtain ⟨u1, c1, h1, h⟩ := Act.bind_eq_ok.1 h
    obtain ⟨u2, c2, h2, h⟩ := Act.bind_eq_ok.1 h
    obtain ⟨ops3, c3, h3, h⟩ := Act.bind_eq_ok.1 h
    obtain ⟨ops4, c4, h4, h⟩ := Act.bind_eq_ok.1 h
    obtain ⟨rfl, rfl⟩ := Act.pure_eq_ok.1 h
    obtain ⟨q, arrays, hq, hids, ha1, ha2, s2, l2, m2, g2, -⟩ := stocked_site hsem hb ha hnew h1 h2
    obtain ⟨rfl, s3, a3, -, sd, b3⟩ := addCombined_site hq s2 l2 h3
    obtain ⟨rfl, s4, a4, -⟩ := addReport_site hq s3 h4
    refine ⟨rfl, ?_⟩
    rw [← hids]
    have a34 := a3.trans a4
    obtain ⟨vp, vr, hv⟩ := hu.volumes sd
    rw [hv] at b3
    exact starting_of rfl ha1 ha2 s4 (by simp) (after_noTimer a34 (by simp [NoTimerUses, m2]))
      (fun _ => (after_kept a34 (by omega)).trans g2) (fun v hv => by
        cases hv
        exact ⟨by decide, _, _, a4.began b3⟩)
  | four => cases hst
  | five => cases hst

/-! ### Runs of what is built -/

variable {b a : SeqGen} {n m : Nat}

/-- a table of a log is that of an execution -/
theorem emitted_at {id : String} {t : Frame} (h : t ∈ tablesOf id (emitted evs)) :
    ∃ e1 d j logs e2, evs = e1 ++ (d, Event.exec j logs) :: e2 ∧ t ∈ tablesOf id logs := by
  induction evs with
  | nil => simp [emitted, tablesOf] at h
  | cons x l ih =>
    have e : emitted (x :: l) = x.2.logs ++ emitted l := rfl
    rw [e, tablesOf_append, List.mem_append] at h
    rcases h with h | h
    · obtain ⟨d, ev⟩ := x
      cases ev with
      | exec j logs => exact ⟨[], d, j, logs, l, rfl, h⟩
      | tick => simp [Event.logs, tablesOf] at h
    · obtain ⟨e1, d, j, logs, e2, rfl, hm⟩ := ih h
      exact ⟨x :: e1, d, j, logs, e2, rfl, hm⟩

/-- **C125** The reports of step 1 tell of no items, and those of step 2 of the number of items of the beginning, in
any run. -/
theorem C125_constant (hsem : env.sem = AnyGen.sem env.R) (hw : Starting env .none a vols (idsFrom b m) n w)
    (h : Played env (Supply.none.chains env day) w evs w') :
    ∀ t ∈ tablesOf "report" (emitted evs), ∀ r ∈ t.rows, ∀ pos ∈ idsFrom b m, cell t r "POS_ID" = .scalar pos →
      cell t r "STOCK_LEVEL" = .num (n : Rat) := by
  have hs : Stands env .none [] w := { hw.stands with volumes := fun v hv => by cases hv }
  intro t ht r hr pos hp hc
  obtain ⟨e1, d, j, logs, e2, rfl, hm⟩ := emitted_at ht
  obtain ⟨pos', hc', x, ⟨l, h1, -, rfl⟩, h2, -⟩ := C125_reports hsem (by simp) h hs env.orders t hm r hr
  rw [hc] at hc'
  cases hc'
  have : l = [] := List.eq_nil_iff_forall_not_mem.2 fun x hx => by simpa using h1 x hx
  rw [h2, hw.stocked _ pos hp, this]
  rfl

/-- **C125** A report of step 3 tells of the number of items of the beginning plus what was delivered according to the
log of restocks before it. -/
theorem C125_told (hsem : env.sem = AnyGen.sem env.R) (hvols : ∀ x ∈ vols, ∃ n : Nat, x = .num (n : Rat)) {v : Nat}
    (hw : Starting env (.told v) a vols (idsFrom b m) n w) {e1 e2 : List (Int × Event)} {d : Int} {j : Nat} {logs : Logs}
    (h : Played env ((Supply.told v).chains env day) w (e1 ++ (d, .exec j logs) :: e2) w') :
    ∀ t ∈ tablesOf "report" logs, ∀ r ∈ t.rows, ∀ pos ∈ idsFrom b m, cell t r "POS_ID" = .scalar pos →
      cell t r "STOCK_LEVEL" = .num (n + deliveredTo pos (emitted e1)) := by
  intro t ht r hr pos hp hc
  obtain ⟨pos', hc', x, -, -, h2⟩ := C125_reports hsem hvols h hw.stands env.orders t ht r hr
  rw [hc] at hc'
  cases hc'
  rw [h2 v rfl, hw.stocked _ pos hp]

/-- **C125** In steps 3 and 3bis, a point of sale that was restocked `x` times according to the log has at least the
number of items of the beginning plus `x` times the smallest volume, and at most that plus `x` times the largest one;
this is what the reports tell. -/
theorem C125_bounds (hsem : env.sem = AnyGen.sem env.R) (hvols : ∀ x ∈ vols, ∃ n : Nat, x = .num (n : Rat))
    (hw : Starting env k a vols (idsFrom b m) n w) {e1 e2 : List (Int × Event)} {d : Int} {j : Nat} {logs : Logs}
    (h : Played env (k.chains env day) w (e1 ++ (d, .exec j logs) :: e2) w') {small big : Nat}
    (hv : ∀ x : Nat, Val.num (x : Rat) ∈ vols → small ≤ x ∧ x ≤ big) :
    ∀ t ∈ tablesOf "report" logs, ∀ r ∈ t.rows, ∀ pos ∈ idsFrom b m, cell t r "POS_ID" = .scalar pos →
      ∃ level : Nat, cell t r "STOCK_LEVEL" = .num (level : Rat) ∧
        n + restocksOf pos (emitted e1) * small ≤ level ∧ level ≤ n + restocksOf pos (emitted e1) * big := by
  intro t ht r hr pos hp hc
  obtain ⟨pos', hc', x, ⟨l, h1, h3, rfl⟩, h2, -⟩ := C125_reports hsem hvols h hw.stands env.orders t ht r hr
  rw [hc] at hc'
  cases hc'
  rw [hw.stocked _ pos hp] at h2
  refine ⟨_, h2, ?_, ?_⟩
  · rw [← h3]
    exact Nat.add_le_add_left (by simpa using List.card_nsmul_le_sum l small fun x hx => (hv x (h1 x hx)).1) _
  · rw [← h3]
    exact Nat.add_le_add_left (by simpa using List.sum_le_card_nsmul l big fun x hx => (hv x (h1 x hx)).2) _

/-- **C125** In any run of steps 3 and 3bis, the items of the points of sale are the first ids of their generator, once
each. -/
theorem C125_all (hsem : env.sem = AnyGen.sem env.R) (hvols : ∀ x ∈ vols, ∃ n : Nat, x = .num (n : Rat))
    (hw : Starting env k a vols (idsFrom b m) n w) (hk : k.volumes ≠ none)
    (h : Played env (k.chains env day) w evs w') (o : Orders) :
    (∃ x, m * n ≤ x ∧ ((stockAt o w' 0).map Prod.snd).Perm (idsFrom a x)) ∧ ((stockAt o w' 0).map Prod.snd).Nodup := by
  obtain ⟨x, h1, h2⟩ := C125_items hsem hvols h hw.stands (hw.next hk) o (hw.all o)
  exact ⟨⟨_, by simp [idsFrom], h1⟩, h2⟩

/-! ### Non-vacuity -/

def exEarly (st : Step) : Option (List (List (Op (World Nat (AnyGen Nat)))) × Circus Nat (AnyGen Nat)) :=
  match Circus.new Rng.counter "shop" 1234 0 (43200 * nsPerSec) with
  | .ok c => match st.build Trumania.exEnv exParams exParts exFmt exFmt c with
    | .ok chains c' => some (chains, c')
    | .error _ _ => none
  | .error _ => none

/-- what the reports of a run tell: the levels in their order -/
def exLevels (st : Step) (which : List (Option Nat)) : Option (List Cell × List Nat) :=
  (exEarly st).bind fun x => (Snd.play exEnv x.1 which x.2.world).map fun r =>
    ((tablesOf "report" (emitted r.1)).flatMap fun t => t.rows.map fun r => cell t r "STOCK_LEVEL",
      [Val.str "POS_000", .str "POS_001"].map fun pos => restocksOf pos (emitted r.1))

def oneReport : List (Option Nat) := [some 0, none]

def twoStories : List (Option Nat) := [some 0, some 1, none]

theorem exLevels_two : exLevels .two (oneReport ++ oneReport ++ oneReport ++ oneReport) =
    some ([.num 3, .num 3, .num 3, .num 3], [0, 0]) := by
  decide +kernel

theorem exLevels_three : exLevels .three (twoStories ++ twoStories) = some ([.num 33, .num 13], [2, 2]) := by
  decide +kernel

theorem exLevels_threeBis : exLevels .threeBis (twoStories ++ twoStories) = some ([.num 33, .num 13], [2, 2]) := by
  decide +kernel

/-- the hypotheses of C125 hold of this run of step 3bis -/
example : ∃ c c' evs w', Circus.new exEnv.R "shop" 1234 0 (43200 * nsPerSec) = .ok c ∧
    Step.threeBis.build exEnv exParams exParts exFmt exFmt c = .ok ((Supply.untold 6).chains exEnv exFmt) c' ∧
    Starting exEnv (.untold 6) ⟨0, "ITEM_", 4⟩ [.num 5, .num 15] (idsFrom ⟨0, "POS_", 3⟩ 2) 3 c'.world ∧
    Played exEnv ((Supply.untold 6).chains exEnv exFmt) c'.world evs w' ∧
    restocksOf (.str "POS_000") (emitted evs) = 2 := by
  obtain ⟨⟨chains, c'⟩, h1, h2⟩ := Option.bind_eq_some_iff.1 exLevels_threeBis
  obtain ⟨⟨evs, w'⟩, h3, h4⟩ := Option.map_eq_some_iff.1 h2
  rw [exEarly] at h1
  split at h1
  · rename_i c hc
    split at h1
    · rename_i hb
      cases h1
      obtain ⟨rfl, k1⟩ := C125_built (env := exEnv) rfl exUsual hc (st := .threeBis) rfl hb
      rw [Prod.mk.injEq] at h4
      exact ⟨c, _, evs, w', hc, hb, k1, Snd.play_played h3, (List.cons.inj h4.2).1⟩
    · cases h1
  · cases h1

end Shop
end Trumania
