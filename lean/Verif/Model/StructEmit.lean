import Verif.Model.FieldEmit

/-!
# Model of how the compiler turns a struct of the schema into its constructor and its properties

capnpy/compiler/fieldtree.py makes a tree of the fields of a struct node, looking up the nodes of groups by id;
capnpy/compiler/structor.py walks the tree and emits `__new`; capnpy/compiler/struct_.py and field.py emit the
properties of the class, and of the classes of the groups.  Model/Ctor.lean starts from a tree (`Field`, `Schema`) and
runs it; here the tree is built from the nodes of the request and the emitted code is a list of statements, which is
run.  Slots are those of Model/FieldEmit.lean.

Not modelled: virtual groups (Model/Group.lean), the other names which the class gets (`has_x`, `get_x`, `is_x`, the
static methods of groups), the names of the classes of groups (a class is given by the id of its node).
-/

namespace Capnpy.StructEmit

open Const (STy TextType PyVal)
open Module (Str Gen)
open FieldEmit (Slot Getter Setter Ctx)

/-! ## The request -/

/-- schema.capnp `Field`: slot or group -/
inductive FKind
  | slot (s : Slot)
  | group (typeId : Nat)

/-- schema.capnp `Field`.  `pyname` is `m.py_field_name(f)` (Model/Names.lean), `nullable` is `f.is_nullable(m)`, `tt`
is `m.options(f).text_type`. -/
structure SField where
  cname : String
  pyname : String
  code : Nat
  disc : Nat
  nullable : Bool
  tt : TextType
  kind : FKind

/-- schema.capnp `Node.struct` -/
structure SNode where
  dataWords : Nat
  ptrs : Nat
  discCount : Nat
  discOffset : Nat
  fields : List SField

/-- The `ModuleGenerator`: `nodes` is `m.allnodes`, for the nodes of structs and groups. -/
structure Env where
  g : Gen
  pyx : Bool
  fuel : Nat
  nodes : Nat → Option SNode

/-- `m.allnodes[id]` -/
def Env.node (e : Env) (id : Nat) : Py SNode :=
  match e.nodes id with
  | some n => .ok n
  | none => .error .keyError

/-- What emitting the slot of a field needs. -/
def Env.ctx (e : Env) (f : SField) : Ctx := ⟨e.g, e.pyx, f.tt, e.fuel⟩

/-- capnpy/schema_extended.py:127-128 `is_part_of_union`; `Field.noDiscriminant` is 0xffff (schema.capnp). -/
def SField.inUnion (f : SField) : Bool := f.disc != 65535

/-- capnpy/schema_extended.py:79-81 `is_void` -/
def SField.isVoid (f : SField) : Bool :=
  match f.kind with
  | .slot s => FieldEmit.tag s.ty == 0
  | .group _ => false

/-- capnpy/schema_extended.py:99-101 `is_pointer` -/
def SField.isPointer (f : SField) : Bool :=
  match f.kind with
  | .slot s => FieldEmit.isPointer s.ty
  | .group _ => false

/-- capnpy/schema_extended.py:261-262 `is_union` -/
def SNode.isUnion (n : SNode) : Bool := decide (n.discCount > 0)

/-- capnpy/annotate_extended.py:8-27 `nullable.check`.  `error()` without the message raises `TypeError`. -/
def check (e : Env) (f : SField) : Py (SField × SField) :=
  match f.kind with
  | .slot _ => .error .assertionError
  | .group id => do
    let group ← e.node id
    match group.fields with
    | [isNull, value] =>
      if isNull.cname != "isNull" || value.cname != "value" then .error .valueError
      else if value.isPointer then .error .valueError
      else pure (isNull, value)
    | _ => .error .typeError

/-! ## The tree of fields: capnpy/compiler/fieldtree.py -/

/-- The default of a parameter, a string which is evaluated later (capnpy/compiler/fieldtree.py:113-132). -/
inductive Dflt
  | undefined
  | none
  | val (v : PyVal)
  | tuple (l : List Dflt)

/-- `Node` (capnpy/compiler/fieldtree.py:90-111).  `union` is `Union(varname, offset)`. -/
inductive Node
  | mk (f : SField) (varname : String) (children : List Node) (union : Option (String × Nat)) (dflt : Dflt)

namespace Node
def f : Node → SField | mk f _ _ _ _ => f
def varname : Node → String | mk _ v _ _ _ => v
def children : Node → List Node | mk _ _ c _ _ => c
def union : Node → Option (String × Nat) | mk _ _ _ u _ => u
def dflt : Node → Dflt | mk _ _ _ _ d => d
end Node

/-- Truth value of `f_is_null.slot.defaultValue.as_pyobj()`; objects are true. -/
def truthy : PyVal → Bool
  | .none => false
  | .bool b => b
  | .int i => i != 0
  | .float fmt bits => bits.toNat % 2 ^ (if fmt = .f then 31 else 63) != 0
  | .bytes b => !b.isEmpty
  | .anyPointer _ => true

/-- `==` for fields (capnpy/schema_extended.py:56-73): the name and `codeOrder`. -/
def SField.same (f g : SField) : Bool := f.cname == g.cname && f.code == g.code

/-- `self.force_default` (capnpy/compiler/fieldtree.py:94); `force` is `field_force_default`, which is `None` for the
constructor. -/
def forcedBy (force : Option SField) (f : SField) : Bool :=
  match force with
  | Option.none => false
  | some g => f.same g

/-- capnpy/compiler/fieldtree.py:113-132 `_get_default` -/
def getDefault (e : Env) (force : Option SField) (f : SField) (children : List Node) : Py Dflt :=
  if f.inUnion && !forcedBy force f then .ok .undefined
  else
    match f.kind with
    | .slot s => .ok (.val s.dflt)
    | .group _ =>
      if f.nullable then do
        let (isNull, _) ← check e f
        match isNull.kind with
        -- `f_is_null.slot` of a group
        | .group _ => .error .valueError
        | .slot s =>
          if truthy s.dflt then pure .none
          else
            match children[1]? with
            | some c => pure c.dflt
            | Option.none => .error .indexError
      else .ok (.tuple (children.map Node.dflt))

/-- capnpy/compiler/fieldtree.py:27-34 `_add_children`; `mk` makes a node. -/
def addChildren (mk : SField → Py Node) : List SField → Py (List Node)
  | [] => .ok []
  | f :: fs =>
    if f.isVoid && !f.inUnion then addChildren mk fs
    else do
      let node ← mk f
      let nodes ← addChildren mk fs
      pure (node :: nodes)

/-- `Node.__init__` (capnpy/compiler/fieldtree.py:92-111) -/
def mkNode (e : Env) (force : Option SField) : Nat → String → SField → Py Node
  | 0, _, _ => .error .recursionError
  | fuel + 1, pfx, f =>
    match f.kind with
    | .slot _ => do pure (.mk f (varname pfx f.pyname) [] none (← getDefault e force f []))
    | .group id => do
      let group ← e.node id
      let children ← addChildren (mkNode e force fuel (varname pfx f.pyname)) group.fields
      let union := if group.isUnion then some (varname pfx f.pyname, group.discOffset * 2) else none
      pure (.mk f (varname pfx f.pyname) children union (← getDefault e force f children))

/-! ## The constructor: capnpy/compiler/structor.py -/

/-- The statements in `__new`. -/
inductive Stmt
  /-- the statements for a slot -/
  | slot (var : String) (code : Setter)
  /-- `x_a, x_b, = x` -/
  | unpack (names : List String) (tup : String)
  /-- `if x is None: …_is_null = 1; …_value = default else: …_is_null = 0; …_value = x` -/
  | ifNone (var : String) (dflt : Dflt)
  /-- `if x is not _undefined: union__curtag = _check_tag(union__curtag, tagname); builder.write_int16(offset, tagval);` -/
  | ifDefined (var union : String) (offset tagval : Nat) (tagname : String) (body : List Stmt)

/-- capnpy/compiler/structor.py:63-77 `handle_node`: the statements of a member of a union are inside an `if`. -/
def wrap (f : SField) (var : String) (uni : Option (String × Nat)) (body : List Stmt) : List Stmt :=
  match f.inUnion, uni with
  | true, some (u, offset) => [Stmt.ifDefined var u offset f.disc f.pyname body]
  | _, _ => body

mutual

/-- capnpy/compiler/structor.py:63-149: `handle_node`, `_handle_node`, `handle_nullable`, `handle_group`; `uni` is
`node.parent.union`.  A group without variables would give the text `, = x`, which is a syntax error of the module: it
is reported here. -/
def handleNode (e : Env) (ds : Nat) (uni : Option (String × Nat)) : Node → Py (List Stmt)
  | .mk f var children union _ => do
    -- the attributes of `node.parent.union` are looked at first
    if f.inUnion && uni.isNone then .error .attributeError
    else do
      pure (wrap f var uni (←
        (if f.nullable then
          match children[1]? with
          | Option.none => .error .indexError
          | some value =>
            if value.f.cname != "value" then .error .assertionError
            else do
              let rest ← handleNodes e ds union children
              pure (Stmt.ifNone var value.dflt :: rest)
        else
          match f.kind with
          | .group _ =>
            if children.isEmpty then .error .syntaxError
            else do
              let rest ← handleNodes e ds union children
              pure (Stmt.unpack (children.map Node.varname) var :: rest)
          | .slot s => do pure [Stmt.slot var (← FieldEmit.emitSetter (e.ctx f) ds s)] : Py (List Stmt))))

/-- `for child in node.children: self.handle_node(child)` -/
def handleNodes (e : Env) (ds : Nat) (uni : Option (String × Nat)) : List Node → Py (List Stmt)
  | [] => .ok []
  | n :: ns => do
    let a ← handleNode e ds uni n
    let b ← handleNodes e ds uni ns
    pure (a ++ b)

end

mutual

/-- capnpy/compiler/fieldtree.py:63-68 `all_unions`, with 17-24 `allnodes`: the variables, of a node and below it. -/
def unions : Node → List String
  | .mk _ _ children union _ => (match union with | some (v, _) => [v] | none => []) ++ unionsAll children

def unionsAll : List Node → List String
  | [] => []
  | n :: ns => unions n ++ unionsAll ns

end

/-- The function `__new` which is emitted. -/
structure NewFn where
  params : List (String × Dflt)
  length : Nat
  curtags : List String
  body : List Stmt

/-- capnpy/compiler/structor.py:19-61: `Structor.__init__` and `emit`, with capnpy/compiler/fieldtree.py:44-87.  Two
parameters with the same name are a `ValueError`. -/
def emitNew (e : Env) (fuel : Nat) (n : SNode) : Py NewFn := do
  let children ← addChildren (mkNode e none fuel "") n.fields
  let union := if n.isUnion then some ("anonymous", n.discOffset * 2) else none
  if ¬ (children.map Node.varname).Nodup then .error .valueError
  else do
    let body ← handleNodes e n.dataWords union children
    pure ⟨children.map fun c => (c.varname, c.dflt), (n.dataWords + n.ptrs) * 8,
      ((match union with | some (v, _) => [v] | none => []) ++ unionsAll children).map curtagVar, body⟩

mutual

/-- Evaluating the text of a default.  `(,)` and the repr of an `AnyPointer` are syntax errors, `inf` and `nan` are not
defined. -/
def Dflt.eval : Dflt → Py Arg
  | .undefined => .ok .undefined
  | .none => .ok .none
  | .val .none => .ok .none
  | .val (.bool b) => .ok (.bool b)
  | .val (.int i) => .ok (.int i)
  | .val (.float fmt bits) => do
    let _ ← FieldEmit.defaultNonZero (.float fmt bits)
    pure (.float bits.toNat)
  | .val (.bytes b) => .ok (.bytes b)
  | .val (.anyPointer _) => .error .syntaxError
  | .tuple l => do
    if l.isEmpty then .error .syntaxError
    else do pure (.tuple (← evalAll l))

def evalAll : List Dflt → Py (List Arg)
  | [] => .ok []
  | d :: ds => do
    let a ← d.eval
    let as ← evalAll ds
    pure (a :: as)

end

/-- The defaults of the parameters: they are evaluated when the module is executed. -/
def NewFn.defaults (fn : NewFn) : Py (List (String × Arg)) := do
  let vals ← evalAll (fn.params.map Prod.snd)
  pure ((fn.params.map Prod.fst).zip vals)

mutual

/-- Running a statement in the frame of `__new`.  `items` are the item types which the module defines. -/
def Stmt.run (items : Str → Option ItemType) (fuel : Nat) : Stmt → Frame → Py Frame
  | .slot var code, fr => code.run items fuel var fr
  | .unpack names tup, fr => do
    match ← fr.get tup with
    | .tuple as => unpack names as fr
    | _ => .error .typeError
  | .ifNone var dflt, fr => do
    if (← fr.get var).isNone then do
      let fr := fr.set (var ++ "_is_null") (.int 1)
      pure (fr.set (var ++ "_value") (← dflt.eval))
    else do
      let fr := fr.set (var ++ "_is_null") (.int 0)
      pure (fr.set (var ++ "_value") (← fr.get var))
  | .ifDefined var union offset tagval tagname body, fr => do
    if (← fr.get var).isUndefined then pure fr
    -- capnpy/struct_.py:19-24 `check_tag`
    else if (← fr.get (curtagVar union)).isNone then do
      let fr := fr.set (curtagVar union) (.str tagname)
      let fr ← fr.call (writeFmt .h ((offset : Nat) : Int) tagval)
      runAll items fuel body fr
    else .error .typeError

def runAll (items : Str → Option ItemType) (fuel : Nat) : List Stmt → Frame → Py Frame
  | [], fr => pure fr
  | s :: ss, fr => do
    let fr ← s.run items fuel fr
    runAll items fuel ss fr

end

/-- Bind the parameters: a positional call of `__new`. -/
def bindNames : List String → List Arg → Frame → Py Frame
  | [], [], fr => pure fr
  | x :: xs, a :: as, fr => bindNames xs as (fr.set x a)
  | _, _, _ => .error .typeError

/-- `__new(*args)` -/
def NewFn.call (items : Str → Option ItemType) (fuel : Nat) (fn : NewFn) (args : List Arg) : Py Bytes := do
  let fr ← bindNames (fn.params.map Prod.fst) args ⟨fun _ => none, []⟩
  -- builder = _SegmentBuilder()
  let fr : Frame := { fr.set "builder" .builder with buf := newBuilder }
  -- pos = builder.allocate({length})
  let fr : Frame := match allocate ((fn.length : Nat) : Int) fr.buf with
    | .ok r b => { fr.set "pos" (.int r) with buf := b }
    | .error _ _ => fr
  let fr := Schema.initCurtags fn.curtags fr
  let fr ← runAll items fuel fn.body fr
  -- return builder.as_string()
  pure fr.buf

/-- capnpy/compiler/struct_.py:160-169 `_emit_init`: `__init__(*args)` -/
def construct (items : Str → Option ItemType) (fuel : Nat) (n : SNode) (fn : NewFn) (args : List Arg) : Py StructObj := do
  let buf ← fn.call items fuel args
  StructObj.initFromBuffer ⟨buf, none⟩ 0 n.dataWords n.ptrs

/-! ## The constructors of the members of the union -/

/-- The class method `new_foo`: its parameters, and the other parameters of `__new`, for which it passes `_undefined`. -/
structure NewMember where
  name : String
  params : List (String × Dflt)
  undef : List String

/-- capnpy/compiler/struct_.py:171-204: `_emit_ctors_union` and `_emit_one_ctor_union`, for one member `tag`. -/
def emitNewMember (e : Env) (fuel : Nat) (n : SNode) (tag : SField) : Py NewMember := do
  let fields := n.fields.filter fun f => !f.inUnion || f.same tag
  let children ← addChildren (mkNode e (some tag) fuel "") fields
  pure ⟨"new_" ++ tag.pyname, children.map fun c => (c.varname, c.dflt),
    (n.fields.filter fun f => !fields.any fun g => f.same g).map SField.pyname⟩

/-- The arguments for the parameters of `__new` in a call with keywords only. -/
def NewFn.kwargs (fn : NewFn) (kw : List (String × Arg)) : Py (List Arg) := do
  let dflts ← fn.defaults
  if kw.all (fun x => fn.params.any fun p => p.1 == x.1) then
    pure (dflts.map fun p => (kw.lookup p.1).getD p.2)
  else .error .typeError

/-- `X.new_foo(**kw)`: it calls `X.__new(x=x, y=y, bar=_undefined)` and `cls.from_buffer(buf, 0, …)`.  `fn` is `__new`. -/
def NewMember.call (items : Str → Option ItemType) (fuel : Nat) (n : SNode) (fn : NewFn) (nm : NewMember) (kw : List (String × Arg)) :
    Py StructObj := do
  let dflts ← evalAll (nm.params.map Prod.snd)
  if kw.all (fun x => nm.params.any fun p => p.1 == x.1) then do
    let args ← fn.kwargs (((nm.params.map Prod.fst).zip dflts).map (fun p => (p.1, (kw.lookup p.1).getD p.2)) ++
      nm.undef.map fun x => (x, Arg.undefined))
    construct items fuel n fn args
  else .error .typeError

/-! ## The properties: capnpy/compiler/field.py -/

/-- A property of the class: that of a slot, that of a group (`cls` is the id of the node of the group) and the public
one of a nullable group, which uses the private one.  `ensure` is the number in `self._ensure_union(…)`. -/
inductive PyProp
  | slot (ensure : Option Nat) (code : Getter)
  | group (ensure : Option Nat) (cls : Nat)
  | nullable (priv : String)

/-- The class of a struct or a group: its properties in the order of their definitions, and `__tag_offset__`. -/
structure PyClass where
  props : List (String × PyProp)
  tagOffset : Option Nat

/-- capnpy/compiler/field.py:13-20 `Field.emit`, with `Field__Slot._emit` (Model/FieldEmit.lean) and, at 224-251,
`Field__Group._emit`. -/
def emitField (e : Env) (f : SField) : Py (List (String × PyProp)) :=
  let ensure := if f.inUnion then some f.disc else none
  match f.kind with
  | .slot s => do pure [(f.pyname, .slot ensure (← FieldEmit.emitGetter (e.ctx f) s))]
  | .group id => do
    let _ ← e.node id
    if f.nullable then do
      let _ ← check e f
      pure [(f.pyname, .nullable ("_" ++ f.pyname)), ("_" ++ f.pyname, .group ensure id)]
    else pure [(f.pyname, .group ensure id)]

/-- `for field in self.get_struct_fields(): field.emit(m, self)` (capnpy/compiler/struct_.py:79-81) -/
def emitFields (e : Env) : List SField → Py (List (String × PyProp))
  | [] => .ok []
  | f :: fs => do
    let a ← emitField e f
    let b ← emitFields e fs
    pure (a ++ b)

/-- capnpy/compiler/struct_.py:51-92 `emit_definition`, with 115-124: `__tag_offset__` is defined if there is a
union. -/
def emitClass (e : Env) (n : SNode) : Py PyClass := do
  let props ← emitFields e n.fields
  pure ⟨props, if n.discCount = 0 then none else some (n.discOffset * 2)⟩

/-- The attribute of the class: the last definition counts. -/
def lookupLast {α} (x : String) : List (String × α) → Option α
  | [] => none
  | (y, p) :: r =>
    match lookupLast x r with
    | some q => some q
    | none => if y = x then some p else none

/-- What a property returns: a value, or an instance of the class of a group. -/
inductive Res
  | val (r : RVal)
  | inst (o : StructObj) (cls : Nat)

/-- The result, without the class. -/
def Res.toRVal : Res → RVal
  | .val r => r
  | .inst o _ => .group o

/-- `{ensure_union}`: `self._ensure_union(tagval)` or nothing. -/
def ensure (o : StructObj) (c : PyClass) : Option Nat → Py Unit
  | none => pure ()
  | some tag => o.ensureUnion (c.tagOffset.map fun off => (off : Int)) tag

/-- `getattr(o, x)` for an instance `o` of the class `c`; `classes` are the classes of the module, `fuel` is the
recursion limit. -/
def getattr (classes : Nat → PyClass) (items : Str → Option ItemType) : Nat → StructObj → PyClass → String → Py Res
  | 0, _, _, _ => .error .recursionError
  | fuel + 1, o, c, x =>
    match lookupLast x c.props with
    | none => .error .attributeError
    | some (.slot en code) => do
      ensure o c en
      pure (.val (← code.run items o))
    | some (.group en cls) => do
      ensure o c en
      pure (.inst (← StructObj.initFromBuffer o.seg o.dataOffset o.dataSize o.ptrsSize) cls)
    | some (.nullable priv) => do
      -- g = self.{privname}
      match ← getattr classes items fuel o c priv with
      | .val _ => .error .attributeError
      | .inst g cls => do
        -- if g.is_null: return None
        if (← getattr classes items fuel g (classes cls) "is_null").toRVal.truthy then pure (.val .none)
        else getattr classes items fuel g (classes cls) "value"

end Capnpy.StructEmit
