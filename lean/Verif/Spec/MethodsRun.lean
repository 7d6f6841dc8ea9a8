import Verif.Spec.JsonReadRun
import Verif.Spec.MethodsCode
import Verif.Model.Bodies

/-!
# What it means to run the generated JSON support of resources

What the code of a method is in a program, and what the memory of a Go program is when it contains the request or the
response of a method.
-/

namespace Verif.MethodsRun

open GoJson (Val Schema Shape DateParser Written Received)
open GoProgram
open TypesRun (Legal value)
open BuildersRun (Program Code resolve isObject Holds)
open JsonCode (Entity Functions formOf functionsOf)
open JsonRun (Library ListCode Fits Sends)
open MethodsCode (Context kindOf bodyOf itemsOf lastThat pageFields pageList messageOf)
open GoBuilder (typed)

/-! ## Parameters -/

/-- The parameters whose values are written by the function that writes the request. -/
def written (m : Method) : List Parameter :=
  match kindOf m with
  | .add | .update => (bodyOf m).toList
  | .delete | .get | .list => []
  | .post => (lastThat m (·.isIn)).toList
  | .search => (lastThat m (·.name == Nom.body)).toList
  | .action => m.parameters.filter (·.isIn)

/-- The parameters whose values are set by the function that reads the response. -/
def obtained (m : Method) : List Parameter :=
  match kindOf m with
  | .add | .get | .update => (bodyOf m).toList
  | .delete => []
  | .list => pageFields m [Nom.page, Nom.size, Nom.total, Nom.items] ++ (itemsOf m).toList
  | .search => pageFields m [Nom.page, Nom.size, Nom.total, Nom.body, Nom.items] ++ (itemsOf m).toList
  | .post => (lastThat m (·.isOut)).toList
  | .action => m.parameters.filter (·.isOut)

/-- The parameters whose values are the whole body. -/
def wholes (m : Method) : List Parameter :=
  match kindOf m with
  | .add | .get | .update => (bodyOf m).toList
  | .post => (lastThat m (·.isIn)).toList ++ (lastThat m (·.isOut)).toList
  | .search => (lastThat m (·.name == Nom.body)).toList
  | .delete | .list | .action => []

/-- The parameters whose values are fields of an object that is the body. -/
def members (m : Method) : List Parameter :=
  match kindOf m with
  | .add | .get | .update | .post | .delete => []
  | .list => pageFields m [Nom.page, Nom.size, Nom.total, Nom.items] ++ (itemsOf m).toList
  | .search => pageFields m [Nom.page, Nom.size, Nom.total, Nom.body, Nom.items] ++ (itemsOf m).toList
  | .action => m.parameters.filter fun p => p.isIn || p.isOut

/-! ## Programs -/

/-- The functions that write and read the values of a type are those of the code of the type. -/
def Calls (S : Schema) (U : TypeId → Code) (J : TypeId → Entity) (L : TypeId → ListCode) (pkg : Text) (ty : TypeId)
    (fs : Functions) : Prop :=
  (isObject (S ty) = true ∧ resolve pkg fs.marshal = ((U ty).pkg, (J ty).functions.marshal) ∧
    resolve pkg fs.unmarshal = ((U ty).pkg, (J ty).functions.unmarshal)) ∨
  ∃ n e, S ty = .list n e ∧ resolve pkg fs.marshal = ((L ty).pkg, (L ty).listing.functions.marshal) ∧
    resolve pkg fs.unmarshal = ((L ty).pkg, (L ty).listing.functions.unmarshal)

/-- The code of a method is part of a package of the program, and the types of the parameters are those of the
schema. -/
structure Linked (P : Program) (S : Schema) (U : TypeId → Code) (J : TypeId → Entity) (L : TypeId → ListCode)
    (x : Context) (r : Resource) (m : Method) (pkg : Text) : Prop where
  legal : Legal (P pkg)
  declared : ∀ i ∈ (messageOf x r m).items, i.decl ∈ P pkg
  write : '.' ∉ (messageOf x r m).write
  read : '.' ∉ (messageOf x r m).read
  scalar : ∀ p ∈ members m, (x.typeOf p.typ.id).isScalar = (S p.typ.id).isScalar
  anything : ∀ p ∈ members m, x.typeOf p.typ.id = .basic .interface ↔ S p.typ.id = .interface
  forms : ∀ p ∈ members m, Fits S U J L pkg p.typ.id false (formOf x false none (x.typeOf p.typ.id))
  functions : ∀ p ∈ wholes m, Calls S U J L pkg p.typ.id (functionsOf (x.typeOf p.typ.id))
  distinct : ∀ p ∈ obtained m, ∀ q ∈ obtained m, Go.privateName p.name = Go.privateName q.name → p = q
  items : ∀ p n e, itemsOf m = some p → S p.typ.id = .list n e →
    match pageList x (x.typeOf p.typ.id) with
    | none => (S e).isScalar = true
    | some typ => isObject (S e) = true ∧ resolve pkg typ = ((U e).pkg, (U e).entity.list)

/-! ## Requests -/

/-- A field of a request contains a value. Scalar values are behind pointers, except for the parameters that can be
anything. -/
def Given (S : Schema) (U : TypeId → Code) (D : Value Val → Prop) (s : State Val Library) (ty : TypeId) (v : Val)
    (y : Value Val) : Prop :=
  v = .nil ∧ y = .nil ∨
  v ≠ .nil ∧ typed S ty false v = true ∧
    if S ty = .interface then y = value v ∧ y ≠ .nil
    else if (S ty).isScalar then ∃ b, y = .pointer b ∧ s.structs[b]? = some [([], value v)]
    else Holds S U D s ty v y

/-- A request is in the memory. -/
def RequestAt (S : Schema) (U : TypeId → Code) (D : Value Val → Prop) (s : State Val Library) (m : Method)
    (fields : Parameter → Val) (request : Value Val) : Prop :=
  ∃ a fs, request = .pointer a ∧ s.structs[a]? = some fs ∧
    ∀ p ∈ written m, ∃ y, fs.lookup (Go.privateName p.name) = some y ∧ Given S U D s p.typ.id (fields p) y

/-- What the function that writes a request does: it sends the body, it does nothing, or it panics. -/
def Submits (s : State Val Library) (r : Res (List (Value Val) × State Val Library)) : Written → Prop
  | .body ts => Sends s r (some ts)
  | .nothing => r = .ok ([.nil], s)
  | .panic => r = .panic
  | .doesNotCompile => True

/-! ## Responses -/

/-- A field of a response contains a value. Scalar values are behind pointers. -/
def Stored (S : Schema) (U : TypeId → Code) (D : Value Val → Prop) (s : State Val Library) (ty : TypeId) (v : Val)
    (y : Value Val) : Prop :=
  if (S ty).isScalar then
    v = .nil ∧ y = .nil ∨ v ≠ .nil ∧ ∃ b, y = .pointer b ∧ D y ∧ s.structs[b]? = some [([], value v)]
  else Holds S U D s ty v y

/-- A response is in the memory: the values of its fields aren't in the structure of the response. -/
def ResponseAt (S : Schema) (U : TypeId → Code) (s : State Val Library) (m : Method) (fields : Parameter → Val)
    (a : Nat) : Prop :=
  ∃ fs, s.structs[a]? = some fs ∧
    ∀ p ∈ obtained m, ∃ y, fs.lookup (Go.privateName p.name) = some y ∧
      Stored S U (· ≠ .pointer a) s p.typ.id (fields p) y

/-- Nothing that was in the memory has changed, except for the fields of the response that the method obtains. -/
structure Keeps (s t : State Val Library) (m : Method) (a : Nat) : Prop where
  structs : ∀ b fs, b ≠ a → s.structs[b]? = some fs → t.structs[b]? = some fs
  arrays : ∀ (b : Nat) xs, s.arrays[b]? = some xs → t.arrays[b]? = some xs
  maps : ∀ (b : Nat) xs, s.maps[b]? = some xs → t.maps[b]? = some xs
  response : ∀ fs, s.structs[a]? = some fs → ∃ fs', t.structs[a]? = some fs' ∧
    fs'.map Prod.fst = fs.map Prod.fst ∧
    ∀ f, f ∉ (obtained m).map (fun p => Go.privateName p.name) → fs'.lookup f = fs.lookup f

/-- What the function that reads a response does: the fields are set and no error is returned, or an error is
returned. -/
def Answers (S : Schema) (U : TypeId → Code) (s : State Val Library) (m : Method) (a : Nat)
    (r : Res (List (Value Val) × State Val Library)) : Received → Prop
  | .fields f => ∃ t, r = .ok ([.nil], t) ∧ t.vars = s.vars ∧ Keeps s t m a ∧ t.user.out = s.user.out ∧
      t.user.sent = s.user.sent ∧ ResponseAt S U t m f a
  | .error => ∃ t, r = .ok ([.error []], t) ∧ t.vars = s.vars ∧ Keeps s t m a ∧ t.user.out = s.user.out ∧
      t.user.sent = s.user.sent
  | .doesNotCompile => True

end Verif.MethodsRun
