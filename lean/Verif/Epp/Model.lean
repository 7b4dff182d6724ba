import Mathlib.Data.Rat.Floor
import Verif.Wear.Model

/-!
# Elastic perfectly plastic wear: model of `WearElasticPerfectlyPlastic`, `slippy/contact/sub_models/epp_wear.py` l.53-128

Fields over the grid are lists of nodes in the order of the array (boolean indexing keeps this order). The wear of the two surfaces is the model of `_Surface.wear` in `Verif.Wear`.
The warning for proportions whose sum exceeds one, and printing, are left out. A missing entry of the state (`KeyError`) is left out.
-/

namespace Verif.Epp

open Verif.Wear (Surf)

variable {K : Type} [Field K] [LinearOrder K] [IsStrictOrderedRing K] [FloorRing K]

/-- The attributes `p_surf_1`, `p_surf_2` and `no_time`. -/
structure Cfg (K : Type) where
  p1 : K
  p2 : K
  noTime : Bool

/-- `__init__`, l.53-77. The comparison `None > 0` in l.73 is a `TypeError`. -/
def construct (p1 : K) (p2 : Option K) (noTime : Bool) : Except PyErr (Cfg K) :=
  if p1 > 1 ∨ p1 < 0 then .error .valueError
  else match p2 with
    | some q => if q > 1 ∨ q < 0 then .error .valueError else .ok ⟨p1, q, noTime⟩
    | none => .error .typeError

/-- One node: the entries of the fields of `current_state` there. -/
structure Node (K : Type) where
  /-- `current_state['loads'].z` -/
  load : K
  /-- `current_state['contact_nodes']` -/
  contact : Bool
  /-- `current_state['gap']` -/
  gap : K
  /-- `current_state['just_touching_gap']` -/
  jtg : K
  /-- `current_state['total_displacement'].z` -/
  disp : K
  /-- `surface_1_points[0]`, `surface_1_points[1]` -/
  y1 : K
  x1 : K
  /-- `surface_2_points[0]`, `surface_2_points[1]` -/
  y2 : K
  x2 : K

/-- The rest of `current_state`. -/
structure Input (K : Type) where
  converged : Option Bool
  newStep : Option Bool
  interference : K
  nodes : List (Node K)

/-- The two surfaces, and `plastic_def_this_step`. -/
structure St (K : Type) where
  s1 : Surf K
  s2 : Surf K
  plastic : Option (List K)

/-- `x >= max_load`, where the maximum load may be infinite. -/
def reaches (x : K) : Option K → Bool
  | none => false
  | some m => m ≤ x

/-- `min(a, b)`, l.100. -/
def minLoad : Option K → Option K → Option K
  | none, b => b
  | a, none => a
  | some a, some b => some (if b < a then b else a)

/-- A node with the gap used there. -/
structure Gapped (K : Type) where
  node : Node K
  g : K

/-- `idx` at one node, l.102-103. -/
def worn (m : Option K) (e : Gapped K) : Bool := reaches e.node.load m && (decide (e.g < 0) && e.node.contact)

/-- `plastic_def_this_step` at the beginning, l.88-89. -/
def plasticStart (st : St K) (inp : Input K) : List K :=
  match st.plastic with
  | none => inp.nodes.map fun _ => 0
  | some p => if inp.newStep = some true then inp.nodes.map fun _ => 0 else p

/-- The gap at the nodes, l.84-96. -/
def gaps (noTime : Bool) (plastic : List K) (inp : Input K) : List (Gapped K) :=
  if noTime then List.zipWith (fun n p => ⟨n, n.jtg - inp.interference + n.disp + p⟩) inp.nodes plastic
  else inp.nodes.map fun n => ⟨n, n.gap⟩

/-- `plastic_def_this_step[idx] += total_wear`, l.106-107. -/
def addPlastic (m : Option K) (gs : List (Gapped K)) (plastic : List K) : List K :=
  List.zipWith (fun e p => if worn m e then p + -e.g else p) gs plastic

/-- The dictionary `results`; the second and third entries are missing (`none`) for a proportion that is not positive. -/
structure Res (K : Type) where
  tpd : K
  wear1 : Option (List K)
  wear2 : Option (List K)

/-- What `solve` returns: the state it was given, or the results. -/
inductive Ret (K : Type) where
  | same
  | res (r : Res K)

/-- `tpd`, l.108-111. -/
def tpd (g p1 p2 : K) (tot : List K) : K := if tot = [] then 0 else tot.sum * g ^ 2 * (p1 + p2)

/-- `solve`, l.79-128. -/
def solve (c : Cfg K) (name : String) (m1 m2 : Option K) (st : St K) (inp : Input K) : St K × Except PyErr (Ret K) :=
  if inp.converged = some false then (st, .ok .same)
  else
    let plastic := plasticStart st inp
    if c.noTime ∧ plastic.length ≠ inp.nodes.length then (st, .error .valueError)
    else
      let st : St K := if c.noTime then { st with plastic := some plastic } else st
      let gs := gaps c.noTime plastic inp
      let m := minLoad m1 m2
      let idx := gs.filter (worn m)
      let tot := idx.map fun e => -e.g
      let st : St K := if c.noTime then { st with plastic := some (addPlastic m gs plastic) } else st
      match st.s1.gs with
      | none => if tot = [] then finish c name st idx tot 0 else (st, .error .typeError)
      | some g => finish c name st idx tot (tpd g c.p1 c.p2 tot)
where
  /-- l.112-128. -/
  finish (c : Cfg K) (name : String) (st : St K) (idx : List (Gapped K)) (tot : List K) (t : K) : St K × Except PyErr (Ret K) :=
    let w1 := tot.map fun d => d * c.p1
    let w2 := tot.map fun d => d * c.p2
    let r1 := if c.p1 > 0 then Wear.wear st.s1 name (idx.map fun e => e.node.x1) (idx.map fun e => e.node.y1) (w1.map some) else (st.s1, none)
    let st : St K := { st with s1 := r1.1 }
    match r1.2 with
    | some e => (st, .error e)
    | none =>
      let r2 := if c.p2 > 0 then Wear.wear st.s2 name (idx.map fun e => e.node.x2) (idx.map fun e => e.node.y2) (w2.map some) else (st.s2, none)
      let st : St K := { st with s2 := r2.1 }
      match r2.2 with
      | some e => (st, .error e)
      | none => (st, .ok (.res ⟨t, if c.p1 > 0 then some w1 else none, if c.p2 > 0 then some w2 else none⟩))

end Verif.Epp
