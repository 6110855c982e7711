/-
Histories of calls of the writing functions of the modeler.
-/
import Verif.Model.Write

namespace Gltf

/-- One call of an exported writing function of package modeler with its arguments. -/
inductive WriteOp where
  | indices (data : Slice)
  | normal (data : List (V3 F32))
  | tangent (data : List (V4 F32))
  | textureCoord (data : Slice)
  | weights (data : Slice)
  | joints (data : Slice)
  | inverseBindMatrices (data : List (V4 (V4 F32)))
  | position (data : List (V3 F32))
  | color (data : Slice)
  | image (name mimeType : Bytes) (r : Except Err Bytes)
  | accessor (target : Target) (data : Slice)
  | accessorsInterleaved (data : List Slice)
  | primitiveAttributes (attr : List PrimitiveAttribute)
  | bufferView (target : Target) (data : Slice)
  | bufferViewInterleaved (data : List Slice)

/-- Forget the value of a result. -/
def discard {α : Type} (r : Document × Res α) : Document × Res Unit := (r.1, r.2.map fun _ => ())

/-- Run a call: document afterwards and outcome. -/
def WriteOp.run (doc : Document) : WriteOp → Document × Res Unit
  | .indices data => discard (writeIndices data doc)
  | .normal data => discard (writeNormal data doc)
  | .tangent data => discard (writeTangent data doc)
  | .textureCoord data => discard (writeTextureCoord data doc)
  | .weights data => discard (writeWeights data doc)
  | .joints data => discard (writeJoints data doc)
  | .inverseBindMatrices data => discard (writeInverseBindMatrices data doc)
  | .position data => discard (writePosition data doc)
  | .color data => discard (writeColor data doc)
  | .image name mimeType r => discard (writeImage name mimeType r doc)
  | .accessor target data => discard (writeAccessor target data doc)
  | .accessorsInterleaved data => discard (writeAccessorsInterleaved data doc)
  | .primitiveAttributes attr => discard (writePrimitiveAttributes attr doc)
  | .bufferView target data => discard (writeBufferView target data doc)
  | .bufferViewInterleaved data => discard (writeBufferViewInterleaved data doc)

/-- `doc'` is reached from `doc` by a finite sequence of calls, each of which succeeds or returns an
error (a panic ends the history). -/
inductive History : Document → Document → Prop
  | nil (doc : Document) : History doc doc
  | step {doc doc' : Document} (op : WriteOp) (h : (op.run doc).2.isPanic = false)
      (rest : History (op.run doc).1 doc') : History doc doc'

end Gltf
