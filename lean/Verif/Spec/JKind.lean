/-
Specification: the kinds of the values in the JSON of glTF 2.0, without what they stand for and without which of them
are required.
-/
import Verif.Spec.Schema
import Verif.Spec.Number

namespace Gltf.Spec

/-- The kind of a value. -/
inductive JKind where
  /-- a whole number -/
  | int
  /-- a whole number from 0, less than a limit -/
  | code (size : Nat)
  /-- a number -/
  | num
  | bool
  | str
  /-- one of some strings -/
  | names (table : List Bytes)
  /-- anything -/
  | any
  /-- an object with anything -/
  | extensions
  /-- an array -/
  | list (s : JKind)
  /-- an array that has a fixed length -/
  | vec (n : Nat) (s : JKind)
  /-- an object with members of any name -/
  | map (s : JKind)
  /-- an object with these members -/
  | obj (fields : List (Bytes × JKind))

/-- The number has a float64 that is nearest to it. -/
def NumOk (lit : Bytes) : Prop := ∃ neg q, LitValue lit neg q ∧ q < limit

/-- All numbers in the value have a nearest float64. -/
inductive NumbersOk : JVal → Prop where
  | null : NumbersOk .null
  | bool (b : Bool) : NumbersOk (.bool b)
  | num (lit : Bytes) : NumOk lit → NumbersOk (.num lit)
  | str (s : Bytes) : NumbersOk (.str s)
  | arr (l : List JVal) : (∀ v ∈ l, NumbersOk v) → NumbersOk (.arr l)
  | obj (l : List (Bytes × JVal)) : (∀ m ∈ l, NumbersOk m.2) → NumbersOk (.obj l)

/-- A value of the kind. `null` is allowed everywhere but for names. Members of objects are recognized without regard to
case; others can be anything, and so can surplus elements of arrays with a fixed length. -/
inductive Fits : JKind → JVal → Prop where
  | null (s : JKind) : (∀ table, s ≠ .names table) → Fits s .null
  | int (lit : Bytes) (n : Int) : IntLit lit n → IntOk n → Fits .int (.num lit)
  | code (size : Nat) (lit : Bytes) : IsDigits lit → decimalOf lit < size → Fits (.code size) (.num lit)
  | num (lit : Bytes) : NumOk lit → Fits .num (.num lit)
  | bool (b : Bool) : Fits .bool (.bool b)
  | str (s : Bytes) : Fits .str (.str s)
  | names (table : List Bytes) (s : Bytes) : s ∈ table → Fits (.names table) (.str s)
  | any (v : JVal) : NumbersOk v → Fits .any v
  | extensions (ms : List (Bytes × JVal)) : Fits .extensions (.obj ms)
  | list (s : JKind) (vs : List JVal) : (∀ v ∈ vs, Fits s v) → Fits (.list s) (.arr vs)
  | vec (n : Nat) (s : JKind) (vs : List JVal) : (∀ v ∈ vs.take n, Fits s v) → Fits (.vec n s) (.arr vs)
  | map (s : JKind) (ms : List (Bytes × JVal)) : (∀ m ∈ ms, Fits s m.2) → Fits (.map s) (.obj ms)
  | obj (fs : List (Bytes × JKind)) (ms : List (Bytes × JVal)) :
      (∀ m ∈ ms, ∀ f ∈ fs, foldKey m.1 = foldKey f.1 → Fits f.2 m.2) → Fits (.obj fs) (.obj ms)

/-- Values of the kind that differ only in what the kind does not describe: members with other names, and surplus
elements of arrays with a fixed length. `same` says which names are the same. -/
inductive Alike (same : Bytes → Bytes → Prop) : JKind → JVal → JVal → Prop where
  | refl (s : JKind) (v : JVal) : Alike same s v v
  | list (s : JKind) (vs ws : List JVal) : vs.length = ws.length →
      (∀ (i : Nat) (v w : JVal), vs[i]? = some v → ws[i]? = some w → Alike same s v w) → Alike same (.list s) (.arr vs) (.arr ws)
  | vec (n : Nat) (s : JKind) (vs ws : List JVal) : (vs.take n).length = (ws.take n).length →
      (∀ (i : Nat) (v w : JVal), (vs.take n)[i]? = some v → (ws.take n)[i]? = some w → Alike same s v w) → Alike same (.vec n s) (.arr vs) (.arr ws)
  | map (s : JKind) (ms ns : List (Bytes × JVal)) : ms.map Prod.fst = ns.map Prod.fst →
      (∀ (i : Nat) (m n : Bytes × JVal), ms[i]? = some m → ns[i]? = some n → Alike same s m.2 n.2) → Alike same (.map s) (.obj ms) (.obj ns)
  | left (fs : List (Bytes × JKind)) (m : Bytes × JVal) (ms ns : List (Bytes × JVal)) : (∀ f ∈ fs, ¬ same m.1 f.1) →
      Alike same (.obj fs) (.obj ms) (.obj ns) → Alike same (.obj fs) (.obj (m :: ms)) (.obj ns)
  | right (fs : List (Bytes × JKind)) (n : Bytes × JVal) (ms ns : List (Bytes × JVal)) : (∀ f ∈ fs, ¬ same n.1 f.1) →
      Alike same (.obj fs) (.obj ms) (.obj ns) → Alike same (.obj fs) (.obj ms) (.obj (n :: ns))
  | both (fs : List (Bytes × JKind)) (f : Bytes × JKind) (m n : Bytes × JVal) (ms ns : List (Bytes × JVal)) : f ∈ fs →
      same m.1 f.1 → same n.1 f.1 → Alike same f.2 m.2 n.2 →
      Alike same (.obj fs) (.obj ms) (.obj ns) → Alike same (.obj fs) (.obj (m :: ms)) (.obj (n :: ns))

/-- Names that do not differ by more than case (as encoding/json sees it). -/
def SameFold (a b : Bytes) : Prop := foldKey a = foldKey b

/-! ### The objects of glTF 2.0 -/

/-- An object with extensions and extra data besides its own members. -/
def object (fs : List (Bytes × JKind)) : JKind := .obj ((b!"extensions", .extensions) :: (b!"extras", .any) :: fs)

def assetS : JKind := object [(b!"copyright", .str), (b!"generator", .str), (b!"version", .str), (b!"minVersion", .str)]

def sparseS : JKind := object
  [(b!"count", .int),
   (b!"indices", object [(b!"bufferView", .int), (b!"byteOffset", .int), (b!"componentType", .code 65536)]),
   (b!"values", object [(b!"bufferView", .int), (b!"byteOffset", .int)])]

def accessorS : JKind := object
  [(b!"name", .str), (b!"bufferView", .int), (b!"byteOffset", .int), (b!"componentType", .code 65536), (b!"normalized", .bool),
   (b!"count", .int), (b!"type", .names [b!"SCALAR", b!"VEC2", b!"VEC3", b!"VEC4", b!"MAT2", b!"MAT3", b!"MAT4"]),
   (b!"max", .list .num), (b!"min", .list .num), (b!"sparse", sparseS)]

def bufferS : JKind := object [(b!"name", .str), (b!"uri", .str), (b!"byteLength", .int)]

def bufferViewS : JKind := object
  [(b!"buffer", .int), (b!"byteOffset", .int), (b!"byteLength", .int), (b!"byteStride", .int), (b!"target", .code 65536), (b!"name", .str)]

def sceneS : JKind := object [(b!"name", .str), (b!"nodes", .list .int)]

def nodeS : JKind := object
  [(b!"name", .str), (b!"camera", .int), (b!"children", .list .int), (b!"skin", .int), (b!"mesh", .int), (b!"weights", .list .num),
   (b!"matrix", .vec 16 .num), (b!"rotation", .vec 4 .num), (b!"scale", .vec 3 .num), (b!"translation", .vec 3 .num)]

def skinS : JKind := object [(b!"name", .str), (b!"inverseBindMatrices", .int), (b!"skeleton", .int), (b!"joints", .list .int)]

/-- The type of a camera is not among the members: it is not read. -/
def cameraS : JKind := object
  [(b!"name", .str),
   (b!"orthographic", object [(b!"xmag", .num), (b!"ymag", .num), (b!"zfar", .num), (b!"znear", .num)]),
   (b!"perspective", object [(b!"aspectRatio", .num), (b!"yfov", .num), (b!"zfar", .num), (b!"znear", .num)])]

def primitiveS : JKind := object
  [(b!"attributes", .map .int), (b!"indices", .int), (b!"material", .int), (b!"mode", .code 256), (b!"targets", .list (.map .int))]

def meshS : JKind := object [(b!"name", .str), (b!"primitives", .list primitiveS), (b!"weights", .list .num)]

def textureInfoS : JKind := object [(b!"index", .int), (b!"texCoord", .int)]

def pbrS : JKind := object
  [(b!"baseColorFactor", .vec 4 .num), (b!"baseColorTexture", textureInfoS), (b!"metallicFactor", .num), (b!"roughnessFactor", .num),
   (b!"metallicRoughnessTexture", textureInfoS)]

def materialS : JKind := object
  [(b!"name", .str), (b!"pbrMetallicRoughness", pbrS),
   (b!"normalTexture", object [(b!"index", .int), (b!"texCoord", .int), (b!"scale", .num)]),
   (b!"occlusionTexture", object [(b!"index", .int), (b!"texCoord", .int), (b!"strength", .num)]),
   (b!"emissiveTexture", textureInfoS), (b!"emissiveFactor", .vec 3 .num), (b!"alphaMode", .str), (b!"alphaCutoff", .num),
   (b!"doubleSided", .bool)]

def textureS : JKind := object [(b!"name", .str), (b!"sampler", .int), (b!"source", .int)]

def samplerS : JKind := object
  [(b!"name", .str), (b!"magFilter", .code 65536), (b!"minFilter", .code 65536), (b!"wrapS", .code 65536), (b!"wrapT", .code 65536)]

def imageS : JKind := object [(b!"name", .str), (b!"uri", .str), (b!"mimeType", .str), (b!"bufferView", .int)]

def animationS : JKind := object
  [(b!"name", .str),
   (b!"channels", .list (object [(b!"sampler", .int), (b!"target", object [(b!"node", .int), (b!"path", .str)])])),
   (b!"samplers", .list (object [(b!"input", .int), (b!"interpolation", .str), (b!"output", .int)]))]

def gltfS : JKind := object
  [(b!"extensionsUsed", .list .str), (b!"extensionsRequired", .list .str), (b!"accessors", .list accessorS),
   (b!"animations", .list animationS), (b!"asset", assetS), (b!"buffers", .list bufferS), (b!"bufferViews", .list bufferViewS),
   (b!"cameras", .list cameraS), (b!"images", .list imageS), (b!"materials", .list materialS), (b!"meshes", .list meshS),
   (b!"nodes", .list nodeS), (b!"samplers", .list samplerS), (b!"scene", .int), (b!"scenes", .list sceneS), (b!"skins", .list skinS),
   (b!"textures", .list textureS)]

end Gltf.Spec
