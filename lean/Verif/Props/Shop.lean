import Verif.Proofs.ShopPlay

/-!
# What the logs of the example of points of sale tell of the stocks

Steps 4 and 5 of examples/tutorial/example2.py: points of sale that are restocked (at random times in step 4, when a
purchase leaves them with few items in step 5) and customers that buy items there.
-/

namespace Trumania
namespace Shop
open Spec World Cdr
variable {σ : Type} {env : Env σ (AnyGen σ)} {w w' : World σ (AnyGen σ)} {vols poss : List Val} {sc : Scene}
  {evs : List (Int × Event)}

theorem tablesOf_append (id : String) (l m : Logs) : tablesOf id (l ++ m) = tablesOf id l ++ tablesOf id m := by
  simp [tablesOf]

theorem purchasesIn_append (l m : List Frame) : purchasesIn (l ++ m) = purchasesIn l ++ purchasesIn m :=
  List.flatMap_append ..

theorem purchases_append (l m : Logs) : purchases (l ++ m) = purchases l ++ purchases m := by
  rw [purchases, tablesOf_append, purchasesIn_append, purchases, purchases]

theorem soldAt_append (pos : Val) (l m : Logs) : soldAt pos (l ++ m) = soldAt pos l + soldAt pos m := by
  rw [soldAt, purchases_append, List.countP_append, soldAt, soldAt]

theorem deliveredTo_append (pos : Val) (l m : Logs) :
    deliveredTo pos (l ++ m) = deliveredTo pos l + deliveredTo pos m := by
  rw [deliveredTo, tablesOf_append, volumeIn, List.map_append, List.sum_append, deliveredTo, deliveredTo, volumeIn,
    volumeIn]

theorem Effect.level {o : Orders} {a : SeqGen} {logs : Logs} {given : List (Val × Val)}
    {S : List Nat} (h : Effect env S o vols a w w' (fun id => tablesOf id logs) given) (pos : Val) :
    (held o w' 0 pos : Rat) = held o w 0 pos + deliveredTo pos logs - soldAt pos logs := by
  have h1 := h.items.countP_eq fun p => decide (p.1 = pos)
  rw [List.countP_append, List.countP_append, List.countP_map] at h1
  have h2 := h.volume pos
  have e1 : held o w' 0 pos + soldAt pos logs = held o w 0 pos + countFor pos given := h1
  have e2 : deliveredTo pos logs = (countFor pos given : Rat) := h2
  have e3 : (held o w' 0 pos : Rat) + soldAt pos logs = held o w 0 pos + countFor pos given := by exact_mod_cast e1
  rw [e2]
  linarith

/-- an execution within a run -/
theorem played_at {γ : Type} {env : Env σ γ} {chains : List (List (Op (World σ γ)))} {w w' : World σ γ}
    {evs e1 e2 : List (Int × Event)} {d : Int} {j : Nat} {logs : Logs} (h : Played env chains w evs w')
    (e : evs = e1 ++ (d, .exec j logs) :: e2) :
    ∃ u u' ops, Played env chains w e1 u ∧ chains[j]? = some ops ∧ execute env ops j u = .ok logs u' ∧
      Played env chains u' e2 w' ∧ d = u.clock.current := by
  induction h generalizing e1 with
  | nil w => simp at e
  | @exec w w1 w' l i ops logs' hi h rest ih =>
    cases e1 with
    | nil =>
      cases e
      exact ⟨w, w1, ops, .nil w, hi, h, rest, rfl⟩
    | cons x e1 =>
      obtain ⟨rfl, e'⟩ := List.cons.inj e
      obtain ⟨u, u', ops', h1, h2⟩ := ih e'
      exact ⟨u, u', ops', .exec hi h h1, h2⟩
  | @tick w w' l rest ih =>
    cases e1 with
    | nil => cases e
    | cons x e1 =>
      obtain ⟨rfl, e'⟩ := List.cons.inj e
      obtain ⟨u, u', ops', h1, h2⟩ := ih e'
      exact ⟨u, u', ops', .tick h1, h2⟩

/-- what holds throughout a run -/
structure Through (env : Env σ (AnyGen σ)) (sc : Scene) (vols poss : List Val) (w w' : World σ (AnyGen σ))
    (logs : Logs) : Prop where
  plays : Plays env sc vols poss w'
  pops : w'.pops = w.pops
  level : ∀ o pos, (held o w' 0 pos : Rat) = levelAfter (held o w 0 pos) pos logs
  items : ∀ a, w.gens[4]? = some (.seq a) → ∃ n : Nat,
    w'.gens[4]? = some (.seq { a with counter := a.counter + (n : Nat) }) ∧
    ∀ o, ((stockAt o w' 0 ++ stockAt o w' 1).map Prod.snd).Perm
      ((stockAt o w 0 ++ stockAt o w 1).map Prod.snd ++ idsFrom a n)
  mine : ∀ o, (stockAt o w' 1).Perm (stockAt o w 1 ++ (purchases logs).map fun m => m.2)

theorem Effect.allItems {o : Orders} {a : SeqGen} {logs : Logs} {given : List (Val × Val)}
    {S : List Nat} (h : Effect env S o vols a w w' (fun id => tablesOf id logs) given) :
    ((stockAt o w' 0 ++ stockAt o w' 1).map Prod.snd).Perm
      ((stockAt o w 0 ++ stockAt o w 1).map Prod.snd ++ idsFrom a given.length) := by
  have h1 := h.items.map Prod.snd
  have h2 := h.mine.map Prod.snd
  rw [List.map_append, List.map_append, List.map_map, h.fresh] at h1
  rw [List.map_append, List.map_map] at h2
  rw [List.map_append, List.map_append]
  refine ((List.Perm.refl _).append h2).trans ?_
  refine (List.Perm.append_left _ List.perm_append_comm).trans ?_
  rw [← List.append_assoc]
  refine (h1.append_right _).trans ?_
  rw [List.append_assoc, List.append_assoc]
  exact List.Perm.append_left _ List.perm_append_comm

theorem through (hsem : env.sem = AnyGen.sem env.R) (hd : sc.Distinct)
    (hvols : ∀ x ∈ vols, ∃ n : Nat, x = .num (n : Rat)) (h : Played env (sc.chains env) w evs w')
    (hw : Plays env sc vols poss w) : Through env sc vols poss w w' (emitted evs) := by
  induction h with
  | nil w =>
    refine ⟨hw, rfl, fun o pos => ?_, fun a ha => ⟨0, ?_, fun o => ?_⟩, fun o => ?_⟩
    · simp [levelAfter, deliveredTo, soldAt, purchases, emitted, tablesOf, volumeIn, purchasesIn]
    · simpa using ha
    · simp [idsFrom]
    · simp [purchases, emitted, tablesOf, purchasesIn]
  | @exec w w1 w' l i ops logs hi h rest ih =>
    have hw1 := exec_plays hsem hd hvols hw hi h
    have ih := ih hw1
    have e : emitted ((w.clock.current, Event.exec i logs) :: l) = logs ++ emitted l := rfl
    have hh := fun o a ha => happened_of hsem hd hvols hw hi h (o := o) (a := a) ha
    obtain ⟨a0, ha0⟩ := hw.items
    refine ⟨ih.plays, ?_, fun o pos => ?_, fun a ha => ?_, fun o => ?_⟩
    · obtain ⟨s, given, -, hh⟩ := hh env.orders a0 ha0
      rw [ih.pops, hh.effect.pops]
    · obtain ⟨s, given, -, hh⟩ := hh o a0 ha0
      rw [ih.level, e, levelAfter, levelAfter, hh.effect.level, deliveredTo_append, soldAt_append]
      push_cast
      ring
    · obtain ⟨s, given, -, h0⟩ := hh env.orders a ha
      obtain ⟨n, g, hn⟩ := ih.items _ h0.effect.gen
      refine ⟨given.length + n, ?_, fun o => ?_⟩
      · rw [g]
        simp [add_assoc]
      · obtain ⟨s', given', -, h1⟩ := hh o a ha
        have hlen : given'.length = given.length := by
          have := h1.effect.gen.symm.trans h0.effect.gen
          simpa using this
        refine (hn o).trans ?_
        rw [idsFrom_append, ← List.append_assoc, ← hlen]
        exact h1.effect.allItems.append_right _
    · obtain ⟨s, given, -, hh⟩ := hh o a0 ha0
      refine (ih.mine o).trans ?_
      rw [e, purchases_append, List.map_append, ← List.append_assoc]
      exact hh.effect.mine.append_right _
  | @tick w w' l rest ih =>
    obtain ⟨hw1, hg⟩ := tick_plays hw hsem
    have ih := ih hw1
    exact ⟨ih.plays, ih.pops, ih.level, fun a ha => ih.items a (hg.trans ha), ih.mine⟩

/-! ### C118: the stocks -/

/-- **C118** In any run of the three stories, a point of sale has the items that it had in the beginning, plus those
that the log of restocks tells to have been delivered there, minus those that the log of purchases tells to have been
bought there. -/
theorem C118_level (hsem : env.sem = AnyGen.sem env.R) (hd : sc.Distinct)
    (hvols : ∀ x ∈ vols, ∃ n : Nat, x = .num (n : Rat)) (h : Played env (sc.chains env) w evs w')
    (hw : Plays env sc vols poss w) (o : Orders) (pos : Val) :
    (held o w' 0 pos : Rat) = levelAfter (held o w 0 pos) pos (emitted evs) :=
  (through hsem hd hvols h hw).level o pos

/-- **C118** Each report tells what the logs written before it add up to. -/
theorem C118_reports (hsem : env.sem = AnyGen.sem env.R) (hd : sc.Distinct)
    (hvols : ∀ x ∈ vols, ∃ n : Nat, x = .num (n : Rat)) {e1 e2 : List (Int × Event)} {d : Int} {j : Nat} {logs : Logs}
    (h : Played env (sc.chains env) w (e1 ++ (d, .exec j logs) :: e2) w') (hw : Plays env sc vols poss w) (o : Orders) :
    ∀ t ∈ tablesOf "report" logs, t.index.Nodup ∧ ∀ r ∈ t.rows, ∃ pos, cell t r "POS_ID" = .scalar pos ∧
      cell t r "STOCK_LEVEL" = .num (levelAfter (held o w 0 pos) pos (emitted e1)) := by
  obtain ⟨u, u', ops, h1, hi, hx, -, -⟩ := played_at h rfl
  have ht := through hsem hd hvols h1 hw
  obtain ⟨a, ha⟩ := ht.plays.items
  obtain ⟨s, given, -, hh⟩ := happened_of hsem hd hvols ht.plays hi hx o ha
  intro t hm
  obtain ⟨k1, k2⟩ := hh.effect.reports t hm
  refine ⟨k1, fun r hr => ⟨r.idx, (k2 r hr).1, ?_⟩⟩
  rw [(k2 r hr).2, ht.level]

/-! ### C119: the restocks -/

/-- **C119** Each restock is of a volume among those that the generator chooses from, and bears the name of the point
of sale; there is one at most per point of sale and execution. -/
theorem C119_restocks (hsem : env.sem = AnyGen.sem env.R) (hd : sc.Distinct)
    (hvols : ∀ x ∈ vols, ∃ n : Nat, x = .num (n : Rat)) {e1 e2 : List (Int × Event)} {d : Int} {j : Nat} {logs : Logs}
    (h : Played env (sc.chains env) w (e1 ++ (d, .exec j logs) :: e2) w') (hw : Plays env sc vols poss w) :
    ∀ t ∈ tablesOf "restock" logs, (t.rows.map fun r => cell t r "POS_ID").Nodup ∧ ∀ r ∈ t.rows, ∃ pos v,
      cell t r "POS_ID" = .scalar pos ∧ ValueOf w 0 "NAME" pos (cell t r "POS_NAME") ∧
      cell t r "RESTOCK_VOLUME" = .scalar v ∧ v ∈ vols := by
  obtain ⟨u, u', ops, h1, hi, hx, -, -⟩ := played_at h rfl
  have ht := through hsem hd hvols h1 hw
  obtain ⟨a, ha⟩ := ht.plays.items
  obtain ⟨s, given, -, hh⟩ := happened_of hsem hd hvols ht.plays hi hx env.orders ha
  intro t hm
  obtain ⟨k1, k2⟩ := hh.effect.restocks t hm
  constructor
  · have : (t.rows.map fun r => cell t r "POS_ID") = t.index.map Cell.scalar := by
      rw [Frame.index, List.map_map]
      exact List.map_congr_left fun r hr => (k2 r hr).1
    rw [this]
    exact k1.map fun x y e => Cell.scalar.inj e
  · intro r hr
    obtain ⟨f1, f2, n, f3, f4, -⟩ := k2 r hr
    exact ⟨r.idx, _, f1, (valueOf_pops ht.pops).1 f2, f3, f4⟩

/-- **C119** In step 5 each restock also tells the stock before it, which is what the logs written before it add up
to, and the stock after it, which is that plus the volume. -/
theorem C119_levels (hsem : env.sem = AnyGen.sem env.R) (hd : sc.Distinct) (htr : sc.trigger ≠ none)
    (hvols : ∀ x ∈ vols, ∃ n : Nat, x = .num (n : Rat)) {e1 e2 : List (Int × Event)} {d : Int} {j : Nat} {logs : Logs}
    (h : Played env (sc.chains env) w (e1 ++ (d, .exec j logs) :: e2) w') (hw : Plays env sc vols poss w) (o : Orders) :
    ∀ t ∈ tablesOf "restock" logs, ∀ r ∈ t.rows, ∃ pos v, cell t r "POS_ID" = .scalar pos ∧
      cell t r "RESTOCK_VOLUME" = .num v ∧
      cell t r "PREV_STOCK_LEVEL" = .num (levelAfter (held o w 0 pos) pos (emitted e1)) ∧
      cell t r "NEW_STOCK_LEVEL" = .num (levelAfter (held o w 0 pos) pos (emitted e1) + v) := by
  obtain ⟨u, u', ops, h1, hi, hx, -, -⟩ := played_at h rfl
  have ht := through hsem hd hvols h1 hw
  obtain ⟨a, ha⟩ := ht.plays.items
  obtain ⟨s, given, -, hh⟩ := happened_of hsem hd hvols ht.plays hi hx o ha
  intro t hm r hr
  obtain ⟨f1, -, n, f3, -, f5⟩ := (hh.effect.restocks t hm).2 r hr
  obtain ⟨f6, f7⟩ := hh.levels htr t hm r hr
  refine ⟨r.idx, n, f1, f3, by rw [f6, ht.level], ?_⟩
  rw [f7, f5, ← ht.level]
  push_cast
  rfl

/-! ### C120: the items -/

/-- **C120** The customers have the items that they had in the beginning and those that the log tells them to have
bought. -/
theorem C120_bought (hsem : env.sem = AnyGen.sem env.R) (hd : sc.Distinct)
    (hvols : ∀ x ∈ vols, ∃ n : Nat, x = .num (n : Rat)) (h : Played env (sc.chains env) w evs w')
    (hw : Plays env sc vols poss w) (o : Orders) :
    (stockAt o w' 1).Perm (stockAt o w 1 ++ (purchases (emitted evs)).map fun m => (m.2.1, m.2.2)) :=
  (through hsem hd hvols h hw).mine o

/-- all the items that the points of sale and the customers have, if these are the first `n` ids of `a` and the next
ones come after them -/
def AllItems (o : Orders) (a : SeqGen) (n : Nat) (w : World σ (AnyGen σ)) : Prop :=
  ((stockAt o w 0 ++ stockAt o w 1).map Prod.snd).Perm (idsFrom a n) ∧
    w.gens[4]? = some (.seq { a with counter := a.counter + n })

/-- **C120** If the points of sale and the customers have, once each, the ids that were drawn so far, they still do
after any run: no item is lost, none is in two places and none is made other than by drawing an id. No item is bought
twice. -/
theorem C120_items (hsem : env.sem = AnyGen.sem env.R) (hd : sc.Distinct)
    (hvols : ∀ x ∈ vols, ∃ n : Nat, x = .num (n : Rat)) (h : Played env (sc.chains env) w evs w')
    (hw : Plays env sc vols poss w) (o : Orders) {a : SeqGen} {n : Nat} (hall : AllItems o a n w) :
    (∃ m, AllItems o a (n + m) w') ∧ ((stockAt o w' 0 ++ stockAt o w' 1).map Prod.snd).Nodup ∧
      ((purchases (emitted evs)).map fun m => m.2.2).Nodup := by
  have ht := through hsem hd hvols h hw
  obtain ⟨m, g, hm⟩ := ht.items _ hall.2
  have hall' : ((stockAt o w' 0 ++ stockAt o w' 1).map Prod.snd).Perm (idsFrom a (n + m)) := by
    rw [idsFrom_append]
    exact (hm o).trans (hall.1.append_right _)
  have hnd := (hall'.nodup_iff).2 (idsFrom_nodup a (n + m))
  refine ⟨⟨m, hall', ?_⟩, hnd, ?_⟩
  · rw [g]
    simp [add_assoc]
  · rw [List.map_append, List.nodup_append] at hnd
    have h1 := (((ht.mine o).map Prod.snd).nodup_iff).1 hnd.2.1
    rw [List.map_append, List.nodup_append, List.map_map] at h1
    exact h1.2.1

/-- **C120** Each purchase names the customer who buys, the company of the point of sale (under the name
`POS_NAME`, which is the attribute `NAME` in the log of restocks) and an item that was there; a customer buys at most
one item per execution. -/
theorem C120_purchases (hsem : env.sem = AnyGen.sem env.R) (hd : sc.Distinct)
    (hvols : ∀ x ∈ vols, ∃ n : Nat, x = .num (n : Rat)) {e1 e2 : List (Int × Event)} {d : Int} {j : Nat} {logs : Logs}
    (h : Played env (sc.chains env) w (e1 ++ (d, .exec j logs) :: e2) w') (hw : Plays env sc vols poss w) :
    ∀ t ∈ tablesOf "purchases" logs, (t.rows.map fun r => cell t r "CUST_ID").Nodup ∧ ∀ r ∈ t.rows, ∃ c pos item,
      cell t r "CUST_ID" = .scalar c ∧ ValueOf w 1 "FIRST_NAME" c (cell t r "BUYER_FIRST_NAME") ∧
      ValueOf w 1 "LAST_NAME" c (cell t r "BUYER_LAST_NAME") ∧ cell t r "POS_ID" = .scalar pos ∧ pos ∈ poss ∧
      ValueOf w 0 "COMPANY" pos (cell t r "POS_NAME") ∧ cell t r "BOUGHT_ITEM_ID" = .scalar item ∧
      ∃ u, Played env (sc.chains env) w e1 u ∧ ∀ o, (pos, item) ∈ stockAt o u 0 := by
  obtain ⟨u, u', ops, h1, hi, hx, -, -⟩ := played_at h rfl
  have ht := through hsem hd hvols h1 hw
  obtain ⟨a, ha⟩ := ht.plays.items
  have hh := fun o => happened_of hsem hd hvols ht.plays hi hx o ha
  intro t hm
  obtain ⟨s, given, -, h0⟩ := hh env.orders
  obtain ⟨k1, k2⟩ := h0.effect.sales t hm
  constructor
  · have : (t.rows.map fun r => cell t r "CUST_ID") = t.index.map Cell.scalar := by
      rw [Frame.index, List.map_map]
      exact List.map_congr_left fun r hr => (k2 r hr).1
    rw [this]
    exact k1.map fun x y e => Cell.scalar.inj e
  · intro r hr
    obtain ⟨f1, f2, f3, pos, item, f4, f5, f6, -⟩ := k2 r hr
    have hp := (h0.buyers t hm).2 r hr
    rw [f4] at hp
    refine ⟨r.idx, pos, item, f1, (valueOf_pops ht.pops).1 f2, (valueOf_pops ht.pops).1 f3, f4, hp,
      (valueOf_pops ht.pops).1 f5, f6, u, h1, fun o => ?_⟩
    obtain ⟨s', given', -, h3⟩ := hh o
    obtain ⟨-, -, -, pos', item', g4, -, g6, g7⟩ := (h3.effect.sales t hm).2 r hr
    rw [f4] at g4
    rw [f6] at g6
    cases g4
    cases g6
    exact g7

end Shop
end Trumania
