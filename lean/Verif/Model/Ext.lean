/-
Model of the packages ext/texturetransform, ext/specular, ext/lightspunctual and ext/unlit.
-/
import Verif.Model.JsonDoc
import Verif.Model.JsonText

namespace Gltf

/-! ### Editing of text -/

/-- `bytes.Replace(s, old, new, 1)` for an `old` that is not empty. -/
def replaceOnce (old new : Bytes) : Bytes → Bytes
  | [] => []
  | c :: s => if old.isPrefixOf (c :: s) then new ++ (c :: s).drop old.length else c :: replaceOnce old new s

/-- ext/texturetransform/transform.go:78-81 and ext/specular/specular.go:65-68, `removeProperty`. -/
def removeProperty (str b : Bytes) : Bytes := replaceOnce b!",," b!"," (replaceOnce str [] b)

/-- ext/texturetransform/transform.go:83-86 and ext/specular/specular.go:70-73, `sanitizeJSON`. -/
def sanitizeJSON (b : Bytes) : Bytes := replaceOnce b!",}" b!"}" (replaceOnce b!"{," b!"{" b)

/-- encoding/json, on the text that a `MarshalJSON` method returned: it has to be valid. -/
def marshalled (text : Bytes) : Except Err JVal :=
  match parseTop text with
  | .ok v [] => .ok v
  | _ => .error (.msg "json: error calling MarshalJSON")

/-! ### ext/texturetransform -/

/-- ext/texturetransform/transform.go:34-39. -/
structure TextureTransform where
  offset : Vector F64 2 := Vector.replicate 2 f64zero
  rotation : F64 := f64zero
  scale : Vector F64 2 := Vector.replicate 2 f64zero
  texCoord : Option Int := none

/-- ext/texturetransform/transform.go:11-12, `DefaultScale`. -/
def transformScale : Vector F64 2 := #v[f64one, f64one]

/-- ext/texturetransform/transform.go:13-14, `emptyScale` and `emptyOffset`. -/
def emptyPair : Vector F64 2 := #v[f64zero, f64zero]

/-- `float64` with `omitempty`. (Before Go 1.22 negative zero was not omitted.) -/
def Env.omitZero (E : Env) : FE F64 := E.float.omitIf (·.feq f64zero)

/-- ext/texturetransform/transform.go:34-39 and 62: the fields of the struct. -/
def transformC' (E : Env) : JC TextureTransform :=
  .struct
    (fun s => (s.offset, s.rotation, s.scale, s.texCoord, ()))
    (fun t => { offset := t.1, rotation := t.2.1, scale := t.2.2.1, texCoord := t.2.2.2.1 })
    (.cons b!"offset" (JC.array 2 E.float).always <|
     .cons b!"rotation" E.omitZero <|
     .cons b!"scale" (JC.array 2 E.float).always <|
     .cons b!"texCoord" omitIndex <|
     .nil)

/-- ext/texturetransform/transform.go:42-47, `ScaleOrDefault`. -/
def TextureTransform.scaleOrDefault (t : TextureTransform) : Vector F64 2 := if arrayEq t.scale emptyPair then transformScale else t.scale

/-- ext/texturetransform/transform.go:50-58, `UnmarshalJSON`. -/
def transformDec (E : Env) (v : JVal) : Except Err TextureTransform := (transformC' E).dec v { scale := transformScale }

/-- ext/texturetransform/transform.go:61-76, `MarshalJSON`. -/
def transformText (E : Env) (t : TextureTransform) : Except Err Bytes := do
  let v ← (transformC' E).enc t
  let out := v.print compact 0
  let out :=
    if arrayEq t.scale transformScale then removeProperty b!"\"scale\":[1,1]" out
    else if arrayEq t.scale emptyPair then removeProperty b!"\"scale\":[0,0]" out
    else out
  let out := if arrayEq t.offset emptyPair then removeProperty b!"\"offset\":[0,0]" out else out
  return sanitizeJSON out

/-- ext/texturetransform/transform.go:23-27, `Unmarshal`. -/
def transformExt (E : Env) (v : JVal) : Except Err (Except Err JVal) :=
  (transformDec E v).map fun t => transformText E t >>= marshalled

/-! ### ext/specular -/

/-- ext/specular/specular.go:27-33. -/
structure Specular where
  diffuseFactor : Option (Vector F64 4) := none
  diffuseTexture : Option TextureInfo := none
  specularFactor : Option (Vector F64 3) := none
  glossinessFactor : Option F64 := none
  specularGlossinessTexture : Option TextureInfo := none

/-- ext/specular/specular.go:27-33 and 48: the fields of the struct. -/
def specularC' (E : Env) : JC Specular :=
  .struct
    (fun s => (s.diffuseFactor, s.diffuseTexture, s.specularFactor, s.glossinessFactor, s.specularGlossinessTexture, ()))
    (fun t => { diffuseFactor := t.1, diffuseTexture := t.2.1, specularFactor := t.2.2.1, glossinessFactor := t.2.2.2.1,
                specularGlossinessTexture := t.2.2.2.2.1 })
    (.cons b!"diffuseFactor" ((JC.ptr (JC.array 4 E.float)).omitIf Option.isNone) <|
     .cons b!"diffuseTexture" ((JC.ptr (textureInfoC E)).omitIf Option.isNone) <|
     .cons b!"specularFactor" ((JC.ptr (JC.array 3 E.float)).omitIf Option.isNone) <|
     .cons b!"glossinessFactor" ((JC.ptr E.float).omitIf Option.isNone) <|
     .cons b!"specularGlossinessTexture" ((JC.ptr (textureInfoC E)).omitIf Option.isNone) <|
     .nil)

/-- ext/specular/specular.go:35-44, `UnmarshalJSON`. -/
def specularDec (E : Env) (v : JVal) : Except Err Specular :=
  (specularC' E).dec v { diffuseFactor := some white, specularFactor := some defaultScale, glossinessFactor := some f64one }

/-- ext/specular/specular.go:47-63, `MarshalJSON`. -/
def specularText (E : Env) (p : Specular) : Except Err Bytes := do
  let v ← (specularC' E).enc p
  let out := v.print compact 0
  let out := if p.glossinessFactor.any (·.feq f64one) then removeProperty b!"\"glossinessFactor\":1" out else out
  let out := if p.diffuseFactor.any (arrayEq · white) then removeProperty b!"\"diffuseFactor\":[1,1,1,1]" out else out
  let out := if p.specularFactor.any (arrayEq · defaultScale) then removeProperty b!"\"specularFactor\":[1,1,1]" out else out
  return sanitizeJSON out

/-- ext/specular/specular.go:16-20, `Unmarshal`. -/
def specularExt (E : Env) (v : JVal) : Except Err (Except Err JVal) :=
  (specularDec E v).map fun p => specularText E p >>= marshalled

/-! ### ext/lightspunctual -/

/-- ext/lightspunctual/lightspunctual.go:51-55. -/
structure Spot where
  innerConeAngle : F64 := f64zero
  outerConeAngle : Option F64 := none

/-- ext/lightspunctual/lightspunctual.go:81-88. -/
structure Light where
  type : Bytes := []
  name : Bytes := []
  color : Option (Vector F64 3) := none
  intensity : Option F64 := none
  range : Option F64 := none
  spot : Option Spot := none

/-- `math.Pi / 4` -/
def f64quarterPi : F64 := ⟨0x3FE921FB54442D18⟩

/-- `math.Inf(0)` -/
def f64inf : F64 := ⟨0x7FF0000000000000⟩

/-- ext/lightspunctual/lightspunctual.go:58-63, `OuterConeAngleOrDefault`. -/
def Spot.outerConeAngleOrDefault (s : Spot) : F64 :=
  match s.outerConeAngle with
  | none => f64quarterPi
  | some x => x

/-- ext/lightspunctual/lightspunctual.go:91-96, `IntensityOrDefault`. -/
def Light.intensityOrDefault (l : Light) : F64 :=
  match l.intensity with
  | none => f64one
  | some x => x

/-- ext/lightspunctual/lightspunctual.go:99-104, `ColorOrDefault`. -/
def Light.colorOrDefault (l : Light) : Vector F64 3 :=
  match l.color with
  | none => defaultScale
  | some x => x

/-- ext/lightspunctual/lightspunctual.go:52-55: the fields of the struct `Spot`. -/
def spotC' (E : Env) : JC Spot :=
  .struct
    (fun s => (s.innerConeAngle, s.outerConeAngle, ()))
    (fun t => { innerConeAngle := t.1, outerConeAngle := t.2.1 })
    (.cons b!"innerConeAngle" E.omitZero <|
     .cons b!"outerConeAngle" ((JC.ptr E.float).omitIf Option.isNone) <|
     .nil)

/-- ext/lightspunctual/lightspunctual.go:66-74, `Spot.UnmarshalJSON`. -/
def spotC (E : Env) : JC Spot := (spotC' E).withDefault { outerConeAngle := some f64quarterPi }

/-- ext/lightspunctual/lightspunctual.go:81-88: the fields of the struct `Light`. -/
def lightC' (E : Env) : JC Light :=
  .struct
    (fun s => (s.type, s.name, s.color, s.intensity, s.range, s.spot, ()))
    (fun t => { type := t.1, name := t.2.1, color := t.2.2.1, intensity := t.2.2.2.1, range := t.2.2.2.2.1, spot := t.2.2.2.2.2.1 })
    (.cons b!"type" JC.string.always <|
     .cons b!"name" omitString <|
     .cons b!"color" ((JC.ptr (JC.array 3 E.float)).omitIf Option.isNone) <|
     .cons b!"intensity" ((JC.ptr E.float).omitIf Option.isNone) <|
     .cons b!"range" ((JC.ptr E.float).omitIf Option.isNone) <|
     .cons b!"spot" ((JC.ptr (spotC E)).omitIf Option.isNone) <|
     .nil)

/-- ext/lightspunctual/lightspunctual.go:107-115, `Light.UnmarshalJSON`. -/
def lightC (E : Env) : JC Light :=
  (lightC' E).withDefault { color := some defaultScale, intensity := some f64one, range := some f64inf }

/-- ext/lightspunctual/lightspunctual.go:77, `Lights`. -/
def lightsC (E : Env) : JC (Option (List (Option Light))) := JC.slice (JC.ptr (lightC E))

/-- ext/lightspunctual/lightspunctual.go:22-25, `envelop`: the lights and the index of a light. -/
def envelopC (E : Env) : JC (Option (List (Option Light)) × Option Int × Unit) :=
  .struct id id (.cons b!"Lights" (lightsC E).always <| .cons b!"Light" (JC.ptr JC.int).always <| .nil)

/-- What `Unmarshal` returns: a list of lights or an index. -/
inductive PunctualExt where
  | lights (l : Option (List (Option Light)))
  | index (i : Int)

/-- ext/lightspunctual/lightspunctual.go:28-37, `Unmarshal`. -/
def lightsDec (E : Env) (v : JVal) : Except Err PunctualExt := do
  let env ← (envelopC E).dec v (none, none, ())
  match env.2.1 with
  | some i => return .index i
  | none => return .lights env.1

/-- `json.Marshal` of what `Unmarshal` returns. -/
def lightsEnc (E : Env) : PunctualExt → Except Err JVal
  | .lights l => (lightsC E).enc l
  | .index i => JC.int.enc i

@[inherit_doc lightsDec]
def lightsExt (E : Env) (v : JVal) : Except Err (Except Err JVal) := (lightsDec E v).map (lightsEnc E)

/-! ### ext/unlit -/

/-- ext/unlit/unlit.go:15-19 and 31-43: `Unmarshal`, and marshalling of the map. -/
def unlitExt (v : JVal) : Except Err (Except Err JVal) :=
  match v with
  | .obj ms => .ok (.ok (.obj (ms.foldl (fun m p => mapInsert p.1 p.2 m) [])))
  | .null => .ok (.ok (.obj []))
  | _ => mismatch

/-! ### Registration -/

/-- The calls of `RegisterExtension` in the `init` functions of the four packages. -/
def standardExtensions (E : Env) : Registry :=
  (((Registry.register [] b!"KHR_lights_punctual" (lightsExt E)).register b!"KHR_materials_pbrSpecularGlossiness" (specularExt E)).register
    b!"KHR_texture_transform" (transformExt E)).register b!"KHR_materials_unlit" unlitExt

end Gltf
