/-
The functions of core_mqtt_state.c commute with renamings of packet identifiers.
-/
import Verif.Spec.Rename
import Verif.Model.StateRun

namespace Mqtt.Rename
open Spec

variable {π : UInt16 → UInt16}

def fm {α β : Type} (g : α → β) : Res α → Res β
  | .ok a => .ok (g a)
  | .ub e => .ub e

theorem bind_fm {α β γ : Type} (g : α → β) (x : Res α) (f : β → Res γ) : (fm g x >>= f) = (x >>= fun a => f (g a)) := by
  cases x <;> rfl

theorem fm_bind {α β γ : Type} (g : β → γ) (x : Res α) (f : α → Res β) : fm g (x >>= f) = (x >>= fun a => fm g (f a)) := by
  cases x <;> rfl

theorem bind_congr {α β : Type} (x : Res α) {f f' : α → Res β} (h : ∀ a, f a = f' a) : (x >>= f) = (x >>= f') := by
  have : f = f' := funext h
  rw [this]

@[simp] theorem fm_pure {α β : Type} (g : α → β) (a : α) : fm g (pure a : Res α) = pure (g a) := rfl
@[simp] theorem fm_ok {α β : Type} (g : α → β) (a : α) : fm g (.ok a : Res α) = .ok (g a) := rfl
@[simp] theorem fm_ub {α β : Type} (g : α → β) (e : UB) : fm g (.ub e : Res α) = .ub e := rfl

theorem zero (h : Renaming π) (a : UInt16) : π a = 0 ↔ a = 0 :=
  ⟨fun e => h.2 _ _ (e.trans h.1.symm), fun e => e ▸ h.1⟩

theorem same (h : Renaming π) (a b : UInt16) : π a = π b ↔ a = b := ⟨h.2 _ _, fun e => e ▸ rfl⟩

theorem bne0 (h : Renaming π) (a : UInt16) : (π a != 0) = (a != 0) := by
  have := zero h a
  by_cases e : a = 0
  · simp [e, h.1]
  · exact (bne_iff_ne.2 fun x => e (this.1 x)).trans (bne_iff_ne.2 e).symm

abbrev R (π : UInt16 → UInt16) (l : Records) : Records := l.map (renameRec π)

theorem empty (h : Renaming π) : renameRec π Rec.empty = Rec.empty := by
  simp [renameRec, Rec.empty, h.1]

@[simp] theorem rid (r : Rec) : (renameRec π r).packetId = π r.packetId := rfl
@[simp] theorem rqos (r : Rec) : (renameRec π r).qos = r.qos := rfl
@[simp] theorem rst (r : Rec) : (renameRec π r).publishState = r.publishState := rfl

theorem get (l : Records) (i : Nat) : getRec (R π l) i = fm (renameRec π) (getRec l i) := by
  unfold getRec
  simp only [R, List.getElem?_map]
  cases l[i]? <;> rfl

theorem set (l : Records) (i : Nat) (r : Rec) : setRec (R π l) i (renameRec π r) = fm (R π) (setRec l i r) := by
  unfold setRec
  simp only [R, List.length_map]
  split
  · simp [R, List.map_set]
  · rfl

theorem setEmpty (h : Renaming π) (l : Records) (i : Nat) :
    setRec (R π l) i Rec.empty = fm (R π) (setRec l i Rec.empty) := by
  have := set (π := π) l i Rec.empty
  rwa [empty h] at this

def rf (π : UInt16 → UInt16) : Option (Nat × Rec) → Option (Nat × Rec) := Option.map fun p => (p.1, renameRec π p.2)

theorem findLoop (h : Renaming π) (l : Records) (id : UInt16) (i : Nat) :
    findInRecordLoop (R π l) (π id) i = fm (rf π) (findInRecordLoop l id i) := by
  fun_induction findInRecordLoop l id i with
  | case1 i hi ih =>
    rw [findInRecordLoop]
    simp only [R, List.length_map, hi, if_true]
    simp only [R] at ih
    rw [get, bind_fm, fm_bind]
    refine bind_congr _ fun r => ?_
    simp only [rid, same h]
    split
    · simp [rf]
    · exact ih
  | case2 i hi =>
    rw [findInRecordLoop]
    simp [R, hi, rf]

theorem find (h : Renaming π) (l : Records) (id : UInt16) :
    findInRecord (R π l) (π id) = fm (rf π) (findInRecord l id) := by
  unfold findInRecord
  rw [bne0 h, findLoop h, fm_bind]

theorem compactLoop (h : Renaming π) (n : Nat) : ∀ (l : Records) (i : Nat) (e : Option Nat),
    Mqtt.compactLoop (R π l) i e n = fm (R π) (Mqtt.compactLoop l i e n) := by
  induction n with
  | zero => intros; rfl
  | succ n ih =>
    intro l i e
    unfold Mqtt.compactLoop
    rw [get, bind_fm, fm_bind]
    refine bind_congr _ fun r => ?_
    simp only [rid, zero h]
    split
    · cases e <;> exact ih ..
    · cases e with
      | none => exact ih ..
      | some e =>
        simp only
        rw [set, bind_fm, fm_bind]
        refine bind_congr _ fun l => ?_
        rw [setEmpty h, bind_fm, fm_bind]
        exact bind_congr _ fun l => ih ..

theorem compact (h : Renaming π) (l : Records) : compactRecords (R π l) = fm (R π) (compactRecords l) := by
  unfold compactRecords
  rw [← compactLoop h]
  simp [R]

theorem addLoop (h : Renaming π) (l : Records) (id : UInt16) (n : Nat) : ∀ (a : Nat) (v : Bool),
    addRecordLoop (R π l) (π id) n a v = addRecordLoop l id n a v := by
  induction n with
  | zero => intros; rfl
  | succ n ih =>
    intro a v
    unfold addRecordLoop
    rw [get, bind_fm]
    refine bind_congr _ fun r => ?_
    simp only [rid, zero h, same h, ih]

def rs (π : UInt16 → UInt16) (p : Status × Records) : Status × Records := (p.1, R π p.2)

theorem add (h : Renaming π) (l : Records) (id : UInt16) (q : QoS) (s : PubState) :
    addRecord (R π l) (π id) q s = fm (rs π) (addRecord l id q s) := by
  unfold addRecord
  rw [bne0 h, fm_bind]
  refine bind_congr _ fun _ => ?_
  rw [fm_bind]
  refine bind_congr _ fun _ => ?_
  have hlen : (R π l).length = l.length := by simp [R]
  rw [hlen]
  split
  · rfl
  · rw [get, bind_fm, fm_bind]
    refine bind_congr _ fun r => ?_
    have hc : (if (renameRec π r).packetId ≠ 0 then compactRecords (R π l) else pure (R π l))
        = fm (R π) (if r.packetId ≠ 0 then compactRecords l else pure l) := by
      simp only [rid, ne_eq, zero h]
      split
      · exact compact h l
      · rfl
    rw [hc, bind_fm, fm_bind]
    refine bind_congr _ fun l => ?_
    have hlen : (R π l).length = l.length := by simp [R]
    rw [hlen, addLoop h, fm_bind]
    refine bind_congr _ fun o => ?_
    cases o with
    | none => rfl
    | some a =>
      simp only
      split
      · rw [fm_bind]
        have := set (π := π) l a ⟨id, q, s⟩
        rw [show renameRec π ⟨id, q, s⟩ = ⟨π id, q, s⟩ from rfl] at this
        rw [this, bind_fm]
        rfl
      · rfl

theorem update (h : Renaming π) (l : Records) (i : Nat) (s : PubState) (d : Bool) :
    updateRecord (R π l) i s d = fm (R π) (updateRecord l i s d) := by
  unfold updateRecord
  split
  · exact setEmpty h l i
  · rw [get, bind_fm, fm_bind]
    exact bind_congr _ fun r => set (π := π) l i { r with publishState := s }

theorem ack (h : Renaming π) (l : Records) (i : Nat) (id : UInt16) (a b : PubState) :
    updateStateAck (R π l) i (π id) a b = fm (rs π) (updateStateAck l i id a b) := by
  unfold updateStateAck
  simp only
  split
  · split
    · rw [update h, bind_fm, fm_bind]
      refine bind_congr _ fun l => ?_
      split
      · exact add h ..
      · rfl
    · rfl
  · rfl

def rt (π : UInt16 → UInt16) (p : Status × Tables) : Status × Tables := (p.1, renameTables π p.2)
def rt3 (π : UInt16 → UInt16) (p : Status × Option PubState × Tables) : Status × Option PubState × Tables :=
  (p.1, p.2.1, renameTables π p.2.2)

theorem publish (h : Renaming π) (t : Tables) (i : Nat) (id : UInt16) (op : Op) (q : QoS) (a b : PubState) :
    updateStatePublish (renameTables π t) i (π id) op q a b = fm (rt π) (updateStatePublish t i id op q a b) := by
  unfold updateStatePublish
  rw [bne0 h, fm_bind]
  refine bind_congr _ fun _ => ?_
  rw [fm_bind]
  refine bind_congr _ fun _ => ?_
  split
  · cases op with
    | receive =>
      simp only
      rw [show (renameTables π t).incoming = R π t.incoming from rfl, add h, bind_fm, fm_bind]
      exact bind_congr _ fun _ => rfl
    | send =>
      simp only
      split
      · rw [show (renameTables π t).outgoing = R π t.outgoing from rfl, update h, bind_fm, fm_bind]
        exact bind_congr _ fun _ => rfl
      · rfl
  · rfl

theorem reserve (h : Renaming π) (t : Tables) (id : UInt16) (q : QoS) :
    reserveState (renameTables π t) (π id) q = fm (rt π) (reserveState t id q) := by
  unfold reserveState
  simp only [zero h]
  split
  · rfl
  · split
    · rfl
    · rw [show (renameTables π t).outgoing = R π t.outgoing from rfl, add h, bind_fm, fm_bind]
      exact bind_congr _ fun _ => rfl

theorem publishApi (h : Renaming π) (t : Tables) (id : UInt16) (op : Op) (q : QoS) :
    updateStatePublishApi (renameTables π t) (π id) op q = fm (rt3 π) (updateStatePublishApi t id op q) := by
  unfold updateStatePublishApi
  simp only [zero h]
  split
  · rfl
  · split
    · rfl
    · cases op with
      | send =>
        simp only
        rw [show (renameTables π t).outgoing = R π t.outgoing from rfl, find h, bind_fm, fm_bind]
        refine bind_congr _ fun o => ?_
        cases o with
        | none => rfl
        | some p =>
          simp only [rf, Option.map_some]
          by_cases e : p.2.qos ≠ q
          · rw [if_pos e, if_pos (show (renameRec π p.2).qos ≠ q from e)]; rfl
          · rw [if_neg e, if_neg (show ¬ (renameRec π p.2).qos ≠ q from e), publish h, bind_fm, fm_bind]
            exact bind_congr _ fun _ => rfl
      | receive =>
        simp only
        rw [publish h, bind_fm, fm_bind]
        exact bind_congr _ fun _ => rfl

theorem remove (h : Renaming π) (t : Tables) (id : UInt16) :
    removeStateRecord (renameTables π t) (π id) = fm (rt π) (removeStateRecord t id) := by
  unfold removeStateRecord
  simp only [show (renameTables π t).outgoing = R π t.outgoing from rfl, R, List.map_eq_nil_iff]
  split
  · rfl
  · rw [show List.map (renameRec π) t.outgoing = R π t.outgoing from rfl, find h, bind_fm, fm_bind]
    refine bind_congr _ fun o => ?_
    cases o with
    | none => rfl
    | some p =>
      simp only [rf, Option.map_some]
      by_cases e : p.2.publishState = .null
      · rw [if_pos e, if_pos (show (renameRec π p.2).publishState = .null from e)]; rfl
      · rw [if_neg e, if_neg (show ¬ (renameRec π p.2).publishState = .null from e)]
        by_cases e : p.2.qos ≠ .qos1 ∧ p.2.qos ≠ .qos2
        · rw [if_pos e, if_pos (show (renameRec π p.2).qos ≠ .qos1 ∧ (renameRec π p.2).qos ≠ .qos2 from e)]; rfl
        · rw [if_neg e, if_neg (show ¬ ((renameRec π p.2).qos ≠ .qos1 ∧ (renameRec π p.2).qos ≠ .qos2) from e), update h, bind_fm, fm_bind]
          exact bind_congr _ fun _ => rfl

theorem ackApi (h : Renaming π) (t : Tables) (id : UInt16) (ty : AckType) (op : Op) :
    updateStateAckApi (renameTables π t) (π id) ty op = fm (rt3 π) (updateStateAckApi t id ty op) := by
  unfold updateStateAckApi
  simp only [zero h]
  split
  · rfl
  · have hr : (if isPublishOutgoing ty op = true then (renameTables π t).outgoing else (renameTables π t).incoming)
        = R π (if isPublishOutgoing ty op = true then t.outgoing else t.incoming) := by split <;> rfl
    rw [hr, find h, bind_fm, fm_bind]
    refine bind_congr _ fun o => ?_
    cases o with
    | none => rfl
    | some p =>
      simp only [rf, Option.map_some, rqos, rst]
      rw [ack h, bind_fm, fm_bind]
      refine bind_congr _ fun _ => ?_
      cases isPublishOutgoing ty op <;> rfl

theorem call (h : Renaming π) (t : Tables) (c : Call) :
    stateCall (renameTables π t) (renameCall π c) = fm (fun p => (p.1, renameTables π p.2)) (stateCall t c) := by
  cases c with
  | reserve id q => 
    simp only [renameCall, stateCall]
    rw [reserve h, bind_fm, fm_bind]
    exact bind_congr _ fun _ => rfl
  | publish op id q =>
    simp only [renameCall, stateCall]
    rw [publishApi h, bind_fm, fm_bind]
    exact bind_congr _ fun _ => rfl
  | ack op ty id =>
    simp only [renameCall, stateCall]
    rw [ackApi h, bind_fm, fm_bind]
    exact bind_congr _ fun _ => rfl
  | cancel id =>
    simp only [renameCall, stateCall]
    rw [remove h, bind_fm, fm_bind]
    exact bind_congr _ fun _ => rfl

theorem run (h : Renaming π) (cs : List Call) : ∀ t : Tables,
    stateRun (renameTables π t) (cs.map (renameCall π)) = fm (fun p => (p.1, renameTables π p.2)) (stateRun t cs) := by
  induction cs with
  | nil => intro t; rfl
  | cons c cs ih =>
    intro t
    simp only [List.map_cons, stateRun]
    rw [call h, bind_fm, fm_bind]
    refine bind_congr _ fun p => ?_
    rw [ih, bind_fm, fm_bind]
    exact bind_congr _ fun _ => rfl

theorem selectLoop (h : Renaming π) (l : Records) (m i : Nat) :
    stateSelectLoop (R π l) m i = fm (fun p => (π p.1, p.2)) (stateSelectLoop l m i) := by
  fun_induction stateSelectLoop l m i with
  | case1 i hi ih =>
    rw [stateSelectLoop]
    simp only [R, List.length_map, hi, if_true]
    simp only [R] at ih
    rw [get, bind_fm, fm_bind]
    refine bind_congr _ fun r => ?_
    by_cases e : checkBitmap m r.publishState = true
    · rw [if_pos e, if_pos (show checkBitmap m (renameRec π r).publishState = true from e)]; rfl
    · rw [if_neg e, if_neg (show ¬ checkBitmap m (renameRec π r).publishState = true from e)]; exact ih
  | case2 i hi =>
    rw [stateSelectLoop]
    simp [R, hi, h.1]

theorem select (h : Renaming π) (l : Records) (m i : Nat) :
    stateSelect (R π l) m i = fm (fun p => (π p.1, p.2)) (stateSelect l m i) := by
  unfold stateSelect
  rw [selectLoop h]
  simp only [fm_bind]

theorem pubrels (h : Renaming π) (t : Tables) (i : Nat) :
    pubrelToResend (renameTables π t) i = fm (fun p => (π p.1, p.2)) (pubrelToResend t i) := by
  unfold pubrelToResend
  rw [show (renameTables π t).outgoing = R π t.outgoing from rfl, select h, bind_fm, fm_bind]
  refine bind_congr _ fun p => ?_
  simp only [ne_eq, zero h, fm_pure]

theorem publishes (h : Renaming π) (t : Tables) (i : Nat) :
    publishToResend (renameTables π t) i = fm (fun p => (π p.1, p.2)) (publishToResend t i) :=
  select h ..

end Mqtt.Rename
