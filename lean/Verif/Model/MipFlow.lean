import Verif.Model.Types
/-
mip_flow.rs and mip_flow_static_data.rs: the flow network handed to the MIP backend.
The backend itself (good_lp/microlp) is not modelled; its contract is `Spec/Backend.lean`.
-/
namespace Wassign

/-- mip_flow.rs:9-25 `MipFlow<u64, u64>`. The `BTreeMap`s are association lists with the most recent
insertion first, so that `lookup` finds the value an overwriting `insert` leaves. -/
structure MipFlow where
  nodeMap : List (Nat × Nat)
  edgeMap : List (Nat × Nat)
  supply : List Int
  outgoing : List (List Nat)
  incoming : List (List Nat)
  edgesMax : List Int
  edgesCost : List Int
  groups : List (List Nat)
  blocked : List Nat
  solution : List Int
deriving DecidableEq, Repr, Inhabited

namespace MipFlow

/-- mip_flow.rs:27-46 `default`. -/
def empty : MipFlow := ⟨[], [], [], [], [], [], [], [], [], []⟩

/-- mip_flow.rs:205-207 `node_count`. -/
def nodeCount (f : MipFlow) : Nat := f.outgoing.length

/-- mip_flow.rs:209-211 `edge_count`. -/
def edgeCount (f : MipFlow) : Nat := f.edgesMax.length

/-- mip_flow.rs:53-59 `add_node`. -/
def addNode (f : MipFlow) : MipFlow × Nat :=
  let f' := { f with
    solution := []
    outgoing := f.outgoing ++ [[]]
    incoming := f.incoming ++ [[]]
    supply := f.supply ++ [0] }
  (f', f'.nodeCount - 1)

/-- mip_flow.rs:61-65 `add_keyed_node`. -/
def addKeyedNode (f : MipFlow) (key : Nat) : MipFlow × Nat :=
  let r := f.addNode
  ({ r.1 with nodeMap := (key, r.2) :: r.1.nodeMap }, r.2)

/-- mip_flow.rs:67-70 `set_supply`. -/
def setSupply (f : MipFlow) (node : Nat) (supply : Int) : R MipFlow := do
  let s ← setIdx f.supply node supply "supply[node]"
  pure { f with solution := [], supply := s }

/-- `v[i].push(x)`. -/
def pushAt (l : List (List Nat)) (i x : Nat) (site : String) : R (List (List Nat)) := do
  let r ← idx l i site
  setIdx l i (r ++ [x]) site

/-- mip_flow.rs:72-80 `add_edge`. -/
def addEdge (f : MipFlow) (src dst : Nat) (max cost : Int) : R (MipFlow × Nat) := do
  let f1 := { f with
    solution := []
    edgesMax := f.edgesMax ++ [max]
    edgesCost := f.edgesCost ++ [cost] }
  let edge := f1.edgeCount - 1
  let out ← pushAt f1.outgoing src edge "outgoing[from]"
  let inc ← pushAt f1.incoming dst edge "incoming[to]"
  pure ({ f1 with outgoing := out, incoming := inc }, edge)

/-- mip_flow.rs:82-93 `add_keyed_edge`. -/
def addKeyedEdge (f : MipFlow) (key src dst : Nat) (max cost : Int) : R (MipFlow × Nat) := do
  let r ← f.addEdge src dst max cost
  pure ({ r.1 with edgeMap := (key, r.2) :: r.1.edgeMap }, r.2)

/-- mip_flow.rs:95-115 `create_edge_group_or_block_edges`. -/
def groupOrBlock (f : MipFlow) (keys : List Nat) : MipFlow :=
  let found := keys.map (fun k => f.edgeMap.lookup k)
  let edges := found.filterMap id
  if found.any (·.isNone) then { f with blocked := f.blocked ++ edges }
  else { f with groups := f.groups ++ [edges] }

/-- mip_flow.rs:195-203 `solution_value_at`. -/
def solutionValueAt (f : MipFlow) (key : Nat) : R Int :=
  if f.solution.isEmpty then panic' "The MIP flow instance is not solved."
  else match f.edgeMap.lookup key with
    | none => pure 0
    | some e => idx f.solution e "solution[edge]"

end MipFlow

/-- mip_flow_static_data.rs:5-6. -/
def slotIdHigh : Nat := 2147483647
def choiceIdHigh : Nat := 2147483646

/-- mip_flow_static_data.rs:20-22 `make_long` on `u32` arguments. -/
def makeLong (high low : Nat) : Nat := high * 4294967296 + low

/-- mip_flow_static_data.rs:24-29 `node_chooser`. -/
def nodeChooserKey (chooser slot : Nat) : R Nat := do
  let a ← toU32 chooser "chooser index must fit in u32"
  let b ← toU32 slot "slot index must fit in u32"
  pure (makeLong a b)

/-- mip_flow_static_data.rs:31-36 `node_slot`. -/
def nodeSlotKey (slot : Nat) : R Nat := do
  let b ← toU32 slot "slot index must fit in u32"
  pure (makeLong slotIdHigh b)

/-- mip_flow_static_data.rs:38-43 `node_choice`. -/
def nodeChoiceKey (choice : Nat) : R Nat := do
  let b ← toU32 choice "choice index must fit in u32"
  pure (makeLong choiceIdHigh b)

/-- mip_flow_static_data.rs:45-50 `edge_id`. -/
def edgeId (src dst : Nat) : R Nat := do
  let a ← toU32 src "node index must fit in u32"
  let b ← toU32 dst "node index must fit in u32"
  pure (makeLong a b)

/-- mip_flow_static_data.rs:8-17 `MipFlowStaticData`. -/
structure StaticData where
  baseFlow : MipFlow
  blockedEdges : List (Nat × Nat)
  constraints : List Constraint
  chooserNodes : List (List Nat)
  choiceNodes : List Nat
  slotNodes : List Nat
deriving DecidableEq, Repr

namespace StaticData

/-- One keyed node (mip_flow_static_data.rs:60, 66, 71): the accumulator is the flow and the node numbers
so far. -/
def addStep (key : Nat → R Nat) (acc : MipFlow × List Nat) (k : Nat) : R (MipFlow × List Nat) := do
  let key ← key k
  let r := acc.1.addKeyedNode key
  pure (r.1, acc.2 ++ [r.2])

/-- mip_flow_static_data.rs:58-62: the nodes of one chooser. -/
def chooserStep (ns : Nat) (acc : MipFlow × List (List Nat)) (chooser : Nat) : R (MipFlow × List (List Nat)) := do
  let r ← (List.range ns).foldlM (addStep (nodeChooserKey chooser)) (acc.1, [])
  pure (r.1, acc.2 ++ [r.2])

/-- mip_flow_static_data.rs:52-82 `new`. The matrix `chooser_nodes` is filled cell by cell in order; here its
rows are appended. -/
def new (i : InputData) : R StaticData := do
  let r1 ← (List.range i.np).foldlM (chooserStep i.ns) (MipFlow.empty, [])
  let r2 ← (List.range i.nc).foldlM (addStep nodeChoiceKey) (r1.1, [])
  let r3 ← (List.range i.ns).foldlM (addStep nodeSlotKey) (r2.1, [])
  pure {
    constraints := i.asgCons
    baseFlow := r3.1
    blockedEdges := []
    chooserNodes := r1.2
    choiceNodes := r2.2
    slotNodes := r3.2 }

/-- `static_data.chooser_nodes[p][t]`. -/
def chooserNode (s : StaticData) (p t : Nat) : R Nat := do
  let row ← idx s.chooserNodes p "chooser_nodes[chooser]"
  idx row t "chooser_nodes[chooser][slot]"

/-- `static_data.choice_nodes[c]`. -/
def choiceNode (s : StaticData) (c : Nat) : R Nat := idx s.choiceNodes c "choice_nodes[choice]"

/-- `static_data.slot_nodes[t]`. -/
def slotNode (s : StaticData) (t : Nat) : R Nat := idx s.slotNodes t "slot_nodes[slot]"

end StaticData
end Wassign
