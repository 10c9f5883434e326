/- Property theorems C48: the AXI3 to AXI-lite bridge. -/
import Verif.Props.DmaLite
import Verif.Model.AxiBridge

set_option autoImplicit false

namespace Props
open Model Spec

def bridgeRun : Bridge → List BridgeIn → Bridge
  | s, [] => s
  | s, i :: r => bridgeRun (s.step i) r

theorem bridgeRun_append : ∀ (xs ys : List BridgeIn) (s : Bridge), bridgeRun s (xs ++ ys) = bridgeRun (bridgeRun s xs) ys
  | [], _, _ => rfl
  | _ :: xs, ys, _ => bridgeRun_append xs ys _

/-- The id of the last request on the bus, write requests first. -/
def lastId : Nat → List BridgeIn → Nat
  | x, [] => x
  | x, i :: r => lastId (if i.lite.awvalid then i.awid else if i.lite.arvalid then i.arid else x) r

theorem bridge_rwid : ∀ (xs : List BridgeIn) (s : Bridge), (bridgeRun s xs).rwid = lastId s.rwid xs
  | [], _ => rfl
  | x :: xs, s => by rw [bridgeRun, bridge_rwid xs, lastId]; rfl

/-- C48: in every cycle the ids of both response channels are the id of the last request that was on
the bus at least two cycles before. -/
theorem C48_id_of_last_request (is : List BridgeIn) (i : BridgeIn) (o : LiteOut) :
    ((bridgeRun .init (is ++ [i])).out o).rid = lastId 0 is ∧ ((bridgeRun .init (is ++ [i])).out o).bid = lastId 0 is := by
  rw [bridgeRun_append]
  simp only [bridgeRun, Bridge.out, Bridge.step, bridge_rwid]
  exact ⟨rfl, rfl⟩

/-- A request phase of the read (write) channel alone with id `x`. -/
def ReadReq (x : Nat) (i : BridgeIn) : Prop := i.lite.arvalid = true ∧ i.arid = x ∧ i.lite.awvalid = false
def WriteReq (x : Nat) (i : BridgeIn) : Prop := i.lite.awvalid = true ∧ i.awid = x
def NoReq (i : BridgeIn) : Prop := i.lite.arvalid = false ∧ i.lite.awvalid = false

theorem lastId_append : ∀ (xs ys : List BridgeIn) (x : Nat), lastId x (xs ++ ys) = lastId (lastId x xs) ys
  | [], _, _ => rfl
  | _ :: xs, ys, _ => lastId_append xs ys _

theorem lastId_const {x : Nat} : ∀ (ys : List BridgeIn), (∀ i ∈ ys, ReadReq x i ∨ WriteReq x i ∨ NoReq i) → lastId x ys = x
  | [], _ => rfl
  | i :: r, h => by
    rw [lastId]
    have : (if i.lite.awvalid then i.awid else if i.lite.arvalid then i.arid else x) = x := by
      rcases h i (List.mem_cons_self ..) with ⟨h1, h2, h3⟩ | ⟨h1, h2⟩ | ⟨h1, h2⟩ <;> simp [*]
    rw [this]
    exact lastId_const r (fun j hj => h j (List.mem_cons_of_mem _ hj))

/-- C48: with one transaction at a time — a request with id `x` is put on the bus (`q`), and from then on
until the response no request with another id — the response, two cycles or more after the first
cycle of the request, carries the id `x`, on whatever side. -/
theorem C48_response_id (pre rest : List BridgeIn) (q i : BridgeIn) (x : Nat) (o : LiteOut)
    (hq : ReadReq x q ∨ WriteReq x q) (hr : ∀ j ∈ rest, ReadReq x j ∨ WriteReq x j ∨ NoReq j) :
    ((bridgeRun .init (pre ++ q :: rest ++ [i])).out o).rid = x ∧ ((bridgeRun .init (pre ++ q :: rest ++ [i])).out o).bid = x := by
  obtain ⟨h1, h2⟩ := C48_id_of_last_request (pre ++ q :: rest) i o
  rw [h1, h2, lastId_append, lastId]
  have : (if q.lite.awvalid then q.awid else if q.lite.arvalid then q.arid else lastId 0 pre) = x := by
    rcases hq with ⟨h1, h2, h3⟩ | ⟨h1, h2⟩ <;> simp [*]
  rw [this, lastId_const rest hr]
  exact ⟨rfl, rfl⟩

/-- C48: data, response codes and handshakes pass unchanged in both directions, and every read beat is
marked as the last. -/
theorem C48_passthrough (s : Bridge) (i : BridgeIn) (o : LiteOut) :
    Bridge.toSlave i = i.lite ∧ (s.out o).lite = o ∧ (s.out o).rlast = true := ⟨rfl, rfl, rfl⟩

/-- The bridge in front of the DMA register slave. -/
def bridgeDmaRun : Bridge × DmaLite → List (BridgeIn × (Nat → Nat)) → List (List BusEv × Nat × Nat)
  | _, [] => []
  | (b, s), (i, ins) :: r =>
    (liteEvents (b.out s.out).lite i.lite, (b.out s.out).rid, (b.out s.out).bid) ::
      bridgeDmaRun (b.step i, s.step (Bridge.toSlave i) ins) r

/-- The transfers with their response id. -/
def idTransfers (b : Bridge × DmaLite) (is : List (BridgeIn × (Nat → Nat))) : List (BusEv × Nat) :=
  (bridgeDmaRun b is).flatMap fun x => x.1.map fun e => (e, match e with | .b _ => x.2.2 | _ => x.2.1)

/-- C48 (limit of the code): when a read (id 5) and a write (id 9) are requested at the same time, the read
is served first but its response carries the id of the write. -/
theorem C48_overlap_wrong_id : ∃ is : List (BridgeIn × (Nat → Nat)),
    (∀ x ∈ is, x.1.arid = 5 ∧ x.1.awid = 9) ∧
    ((idTransfers (.init, .init) is).filter fun x => match x.1 with | .r _ _ => true | _ => false) = [(.r 0 0, 9)] := by
  refine ⟨(List.replicate 3 (⟨⟨true, 4096, true, true, 4096, false, 0, 0, true⟩, 5, 9⟩ : BridgeIn) ++
    List.replicate 2 (⟨⟨false, 4096, true, true, 4096, false, 0, 0, true⟩, 5, 9⟩ : BridgeIn)).map (·, fun _ => 0), ?_, by decide +kernel⟩
  simp

end Props
