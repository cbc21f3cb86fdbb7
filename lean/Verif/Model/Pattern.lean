import Verif.Model.Py
import Verif.Model.Text
import Verif.Model.Graph
import Verif.Model.Counter
/-!
# Model of `Patro/Pattern/Pattern.py`, `Sketch.py` and of the bookkeeping of `SketchOperation.py`

The numeric content of the operations is in `Verif.Model.SketchGeometry`; here an expression is reduced to the point
names it mentions and to those whose position it reads.
-/

namespace Patro.Pattern

open Patro
open Patro.Text (Text)

/-! ## Scopes -/

/-- A pattern scope: an object (its identity is `uid`) with a name that can be changed
(Pattern.py:102-117, Common/Object.py:28-49). -/
structure Scope where
  uid : Nat
  name : Option Text
deriving DecidableEq, Repr

/-- A pattern: `_scopes`, and the next object identity (Pattern.py:44-51). -/
structure Pat where
  scopes : List Scope := []
  next : Nat := 0
deriving DecidableEq, Repr

/-- The argument of `scope` and `remove_scope`: an int, or something compared with the names. -/
inductive ScopeKey where
  | index (i : Int)
  | name (n : Option Text)

/-- `add_scope(name)` (Pattern.py:75-78). -/
def Pat.addScope (p : Pat) (name : Option Text) : Pat × Scope :=
  let s : Scope := ⟨p.next, name⟩
  ({ scopes := p.scopes ++ [s], next := p.next + 1 }, s)

/-- `scope(id)` (Pattern.py:82-91). -/
def Pat.scope (p : Pat) : ScopeKey → Except PyErr (Option Scope)
  | .index i => (Py.getItemInt p.scopes i).map some
  | .name n => .ok (p.scopes.find? fun s => s.name = n)

/-- `list.remove(x)`: the first element that is the same object. -/
def removeFirst : List Scope → Nat → List Scope
  | [], _ => []
  | s :: l, u => if s.uid = u then l else s :: removeFirst l u

/-- `remove_scope(name)` (Pattern.py:95-98). -/
def Pat.removeScope (p : Pat) (key : ScopeKey) : Except PyErr Pat := do
  match ← p.scope key with
  | some s => return { p with scopes := removeFirst p.scopes s.uid }
  | none => return p

/-- `scope.name = value` (Common/Object.py:44-49). -/
def Pat.rename (p : Pat) (uid : Nat) (name : Option Text) : Pat :=
  { p with scopes := p.scopes.map fun s => if s.uid = uid then { s with name := name } else s }

/-! ## Sketch -/

/-- A key of the operation dictionary: an int (the id of an operation, or a point name that is an int) or a text. -/
inductive Key where
  | int (i : Int)
  | str (t : Text)
deriving DecidableEq, Repr

/-- Identity of an operation object (`pyid`). It is also the reference of its graph node: the two are created
together (SketchOperation.py:88). -/
abbrev Uid := Nat

/-- An expression of an operation (Calculator.py:203-330), reduced to what matters here: `deps` are the names
mentioned in `Line_…` calls (collected by `NodeVisitor`, 36-72), `reads` the names of the points whose position is
looked up when the expression is run (190-199). The two differ: calls in a branch that is not taken are mentioned but not
read, `AngleLine_…` reads without being collected. `ok` is false when running the expression raises
for another reason. `resolved` is `_dependencies`, `hasValue` tells that `_value` is cached; `readFrom` is a ghost: the
operations whose position was read to compute that value. -/
structure Expr where
  deps : List Key
  reads : List Key
  ok : Bool := true
  resolved : Option (List Uid) := none
  hasValue : Bool := false
  readFrom : List Uid := []
deriving DecidableEq, Repr

/-- The kinds of operation: a point has a name, a spline is evaluated, a line is not. -/
inductive Kind where
  | point (name : Key)
  | spline
  | line
deriving DecidableEq, Repr

/-- An operation registered in a sketch. `refs` are the operations it was constructed from. -/
structure Op where
  uid : Uid
  id : Int
  kind : Kind
  refs : List Uid
  exprs : List Expr
deriving DecidableEq, Repr

/-- `operation.name` when it has one. -/
def Op.name (o : Op) : Option Key :=
  match o.kind with
  | .point n => some n
  | _ => none

/-- A sketch (Sketch.py:46-61) with its calculator (Calculator.py:82-95): `_operations`, `_operation_dict`, the
dependency graph, the points known by name, the operations whose position is computed (`vector` is not `None`; for a
spline the control points), and the shared id counter. -/
structure Sk where
  ops : List Op := []
  dict : Dict Key Uid := []
  dag : Graph.G Uid := {}
  points : Dict Key Uid := []
  vec : List Uid := []
  counter : Int := Counter.initialCounter

/-- An argument designating an operation: the object itself, or its id or name (SketchOperation.py:107-118). -/
inductive RefArg where
  | obj (u : Uid)
  | key (k : Key)
deriving DecidableEq, Repr

/-- `_get_operation` (SketchOperation.py:107-118). -/
def Sk.getOperation (s : Sk) : RefArg → Except PyErr Uid
  | .obj u => .ok u
  | .key k => s.dict.getItem k

/-- `_connect_ancestor(*points)` (SketchOperation.py:181-186) for the operation `u`. `dag[pyid(point)]` raises
`KeyError` for an operation of another sketch; the edges made before stay. -/
def connectAncestors (dag : Graph.G Uid) (u : Uid) : List Uid → Graph.G Uid × Except PyErr Unit
  | [] => (dag, .ok ())
  | p :: ps =>
    match dag.getItem p with
    | .error e => (dag, .error e)
    | .ok r => connectAncestors (dag.connectAncestor u r) u ps

/-- The constructors resolve and connect their references group by group (SketchOperation.py:248-252, 269-271,
327-329, 523-531): within a group all references are resolved, then all are connected. -/
def Sk.resolveGroups (s : Sk) (u : Uid) : Graph.G Uid → List (List RefArg) → Graph.G Uid × Except PyErr (List Uid)
  | dag, [] => (dag, .ok [])
  | dag, g :: gs =>
    match g.mapM s.getOperation with
    | .error e => (dag, .error e)
    | .ok us =>
      match connectAncestors dag u us with
      | (dag', .error e) => (dag', .error e)
      | (dag', .ok ()) =>
        match s.resolveGroups u dag' gs with
        | (dag'', .error e) => (dag'', .error e)
        | (dag'', .ok vs) => (dag'', .ok (us ++ vs))

/-- A call of a sketch method: `sketch.SinglePoint(…)`, `sketch.Line(…)`, … -/
structure Req where
  id : Option Int := none
  kind : Kind
  groups : List (List RefArg) := []
  /-- for each expression: the names mentioned, the names read, and whether it runs -/
  exprs : List (List Key × List Key × Bool) := []

/-- `_add_operation` (Sketch.py:87-94). -/
def Sk.addOperation (s : Sk) (o : Op) : Sk :=
  let dict := s.dict.set (.int o.id) o.uid
  { s with
    ops := s.ops ++ [o]
    dict := match o.name with
      | some n => dict.set n o.uid
      | none => dict }

/-- A sketch method (Pattern/__init__.py:42-54): the constructor (SketchOperation.py:76-89 and those of the
subclasses), then `_add_operation`. When the constructor raises, the id is consumed and the graph node stays, with the
edges made so far. -/
def Sk.create (s : Sk) (q : Req) : Sk × Except PyErr Uid :=
  match Counter.newOperationId s.counter q.id with
  | (c, .error e) => ({ s with counter := c }, .error e)
  | (c, .ok i) =>
    let u : Uid := s.dag.next
    match s.dag.addNode u with
    | .error e => ({ s with counter := c }, .error e)
    | .ok (dag, _) =>
      match s.resolveGroups u dag q.groups with
      | (dag', .error e) => ({ s with counter := c, dag := dag' }, .error e)
      | (dag', .ok refs) =>
        let o : Op :=
          { uid := u, id := i, kind := q.kind, refs := refs
            exprs := q.exprs.map fun e => { deps := e.1, reads := e.2.1, ok := e.2.2 } }
        (({ s with counter := c, dag := dag' } : Sk).addOperation o, .ok u)

/-! ### Evaluation -/

/-- Running an expression: every position read must be known and computed. The result lists the operations whose
position was read. -/
def runExpr (points : Dict Key Uid) (vec : List Uid) (e : Expr) : Except PyErr (List Uid) :=
  match e.reads.mapM points.getItem with
  | .error err => .error err
  | .ok us => if us.all (· ∈ vec) && e.ok then .ok us else .error .typeError

/-- `eval()` if the value is not cached (Calculator.py:332-347, 360-365). -/
def valueExpr (points : Dict Key Uid) (vec : List Uid) (e : Expr) : Expr × Except PyErr Unit :=
  if e.hasValue then (e, .ok ())
  else
    match runExpr points vec e with
    | .ok us => ({ e with hasValue := true, readFrom := us }, .ok ())
    | .error err => (e, .error err)

/-- `expression.value` (Calculator.py:332-365): compile if needed, then run if the value is not cached. What was done
before an exception stays. -/
def evalExpr (points : Dict Key Uid) (vec : List Uid) (e : Expr) : Expr × Except PyErr Unit :=
  match e.resolved with
  | some _ => valueExpr points vec e
  | none =>
    match e.deps.mapM points.getItem with
    | .error err => (e, .error err)
    | .ok us => valueExpr points vec { e with resolved := some us }

/-- The expressions of an operation, one after the other. -/
def evalExprs (points : Dict Key Uid) (vec : List Uid) : List Expr → List Expr × Except PyErr Unit
  | [] => ([], .ok ())
  | e :: es =>
    match evalExpr points vec e with
    | (e', .error err) => (e' :: es, .error err)
    | (e', .ok ()) =>
      match evalExprs points vec es with
      | (es', r) => (e' :: es', r)

/-- The positions of the referenced operations must be computed, otherwise the arithmetic on `None` raises. -/
def needRefs (vec : List Uid) (o : Op) : Except PyErr Unit :=
  if o.refs.all (· ∈ vec) then .ok () else .error .attributeError

/-- How the geometric computation of an operation ends: with a position, with `None` (`PointOfContact` or
`LineIntersectPoint` without intersection), or with an exception. -/
inductive Geom where
  | position
  | null
  | raises (e : PyErr)
deriving DecidableEq, Repr

/-- `operation.eval()` (SketchOperation.py:122-130 and the `eval_internal` methods): for a point the referenced positions
are used first, for a spline the expressions. -/
def evalOp (geom : Uid → Geom) (points : Dict Key Uid) (vec : List Uid) (o : Op) : Op × List Uid × Except PyErr Unit :=
  let finish (o' : Op) : Op × List Uid × Except PyErr Unit :=
    match geom o.uid with
    | .position => (o', if o.uid ∈ vec then vec else vec ++ [o.uid], .ok ())
    | .null => (o', vec.filter (· ≠ o.uid), .ok ())
    | .raises e => (o', vec, .error e)
  match o.kind with
  | .point _ =>
    match needRefs vec o with
    | .error e => (o, vec, .error e)
    | .ok () =>
      match evalExprs points vec o.exprs with
      | (es, .error e) => ({ o with exprs := es }, vec, .error e)
      | (es, .ok ()) => finish { o with exprs := es }
  | .spline =>
    match evalExprs points vec o.exprs with
    | (es, .error e) => ({ o with exprs := es }, vec, .error e)
    | (es, .ok ()) =>
      match needRefs vec o with
      | .error e => ({ o with exprs := es }, vec, .error e)
      | .ok () => finish { o with exprs := es }
  | .line => (o, vec, .ok ())

/-- `connect_ancestor_for_expressions()` (SketchOperation.py:201-205): `TypeError` when an expression was not
compiled. -/
def connectExprs (dag : Graph.G Uid) (u : Uid) : List Expr → Graph.G Uid × Except PyErr Unit
  | [] => (dag, .ok ())
  | e :: es =>
    match e.resolved with
    | none => (dag, .error .typeError)
    | some us =>
      match connectAncestors dag u us with
      | (dag', .error err) => (dag', .error err)
      | (dag', .ok ()) => connectExprs dag' u es

/-- A point is made known to the calculator before it is evaluated (Sketch.py:113-114; `add_point`,
Calculator.py:127-128). -/
def addPoint (points : Dict Key Uid) (o : Op) : Dict Key Uid :=
  match o.name with
  | some n => points.set n o.uid
  | none => points

/-- The loop of `Sketch.eval` (Sketch.py:108-119) over the operations `todo`; `done` are those before. The last component
lists the operations whose `eval` was completed, in order. -/
def Sk.evalLoop (geom : Uid → Geom) (s : Sk) (done : List Op) : List Op → Sk × List Uid × Except PyErr Unit
  | [] => ({ s with ops := done }, [], .ok ())
  | o :: todo =>
    let s1 := { s with points := addPoint s.points o }
    match evalOp geom (addPoint s.points o) s.vec o with
    | (o', vec, .error e) => ({ s1 with vec := vec, ops := done ++ o' :: todo }, [], .error e)
    | (o', vec, .ok ()) =>
      match connectExprs s.dag o.uid o'.exprs with
      | (dag, .error e) => ({ s1 with vec := vec, dag := dag, ops := done ++ o' :: todo }, [o.uid], .error e)
      | (dag, .ok ()) =>
        match Sk.evalLoop geom { s1 with vec := vec, dag := dag } (done ++ [o']) todo with
        | (s', l, r) => (s', o.uid :: l, r)

/-- `sketch.eval()` (Sketch.py:108-119). -/
def Sk.eval (geom : Uid → Geom) (s : Sk) : Sk × List Uid × Except PyErr Unit := s.evalLoop geom [] s.ops

end Patro.Pattern
