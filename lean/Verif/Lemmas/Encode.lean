/-
Lemmas on the encoder: what is written.
-/
import Verif.Model.Encode
import Verif.Spec.Glb

namespace Gltf

open Spec

/-! ### Numbers -/

theorem leNat_putLe32 {n : Nat} (h : n < 4294967296) : IsLe4 (putLe32 n) n := by
  refine ⟨rfl, ?_⟩
  show (UInt8.ofNat n).toNat + 256 * ((UInt8.ofNat (n / 256)).toNat + 256 * ((UInt8.ofNat (n / 65536)).toNat
    + 256 * ((UInt8.ofNat (n / 16777216)).toNat + 256 * 0))) = n
  simp only [UInt8.toNat_ofNat']
  omega

theorem wrap64_small {x : Int} (h : -4294967296 * 4 ≤ x) (h' : x < 4294967296 * 4) : wrap64 x = x := by
  unfold wrap64; omega

theorem binPadded_small {n : Int} (h0 : 0 ≤ n) (h : n < 4294967296) : binPadded n = (n + 3) / 4 * 4 := by
  unfold binPadded goDiv4
  rw [wrap64_small (x := n + 3) (by omega) (by omega), Int.tdiv_eq_ediv_of_nonneg (by omega), wrap64_small (by omega) (by omega)]

theorem uint32_small {n : Int} (h0 : 0 ≤ n) (h : n < 4294967296) : uint32 n = n.toNat := by
  unfold uint32; rw [Int.emod_eq_of_lt h0 h]

/-! ### Writers without errors -/

theorem Sink.write_plain {w : Sink} (h : w.plan = []) (p : Bytes) : w.write p = (none, { out := w.out ++ p, plan := [] }) := by
  unfold Sink.write; rw [h]; rfl

/-- The BIN chunk as it is written. -/
def binChunk (b : Buffer) : Bytes :=
  putLe32 (uint32 (binPadded b.byteLength)) ++ putLe32 glbChunkBIN ++ b.data
    ++ List.replicate (wrap64 (binPadded b.byteLength - b.byteLength)).toNat 0

/-- The spaces after the JSON text. -/
def jsonPadding (n : Nat) : Bytes := List.replicate ((jsonPadded n + size32 - n % size32) % size32) (32 : UInt8)

/-- The BIN chunk, if there is one. -/
def chunkOf : Option Buffer → Bytes
  | none => []
  | some b => binChunk b

/-- The file as it is written. -/
def glbBytes (text : Bytes) (first : Option Buffer) : Bytes :=
  glbHeader text.length (first.map (·.byteLength)) ++ text ++ jsonPadding text.length ++ chunkOf first

theorem writeBinary_plain {text : Bytes} {first : Option Buffer} {w : Sink} (hw : w.plan = []) :
    (∃ b, first = some b ∧ ∃ m w', writeBinary text first w = (.panic m, w')) ∨
    writeBinary text first w = (.ok first.isSome, { out := w.out ++ glbBytes text first, plan := [] }) := by
  unfold writeBinary
  simp only [Sink.write_plain hw]
  rw [Sink.write_plain rfl, Sink.write_plain rfl]
  cases first with
  | none =>
    right
    simp only [glbBytes, chunkOf, jsonPadding, Option.map_none, Option.isSome_none, List.append_assoc, List.append_nil]
  | some b =>
    simp only
    split
    · exact .inl ⟨b, rfl, _, _, rfl⟩
    · right
      rw [Sink.write_plain rfl, Sink.write_plain rfl, Sink.write_plain rfl]
      simp only [glbBytes, chunkOf, jsonPadding, binChunk, Option.map_some, Option.isSome_some, List.append_assoc]

theorem writeBinary_ok {text : Bytes} {first : Option Buffer} {w : Sink} (hw : w.plan = [])
    (hb : ∀ b ∈ first, 0 ≤ b.byteLength ∧ b.byteLength < 4294967296) :
    writeBinary text first w = (.ok first.isSome, { out := w.out ++ glbBytes text first, plan := [] }) := by
  unfold writeBinary
  simp only [Sink.write_plain hw]
  rw [Sink.write_plain rfl, Sink.write_plain rfl]
  cases first with
  | none => simp only [glbBytes, chunkOf, jsonPadding, Option.map_none, Option.isSome_none, List.append_assoc, List.append_nil]
  | some b =>
    simp only
    have ⟨h0, h1⟩ := hb b rfl
    rw [if_neg (by rw [binPadded_small h0 h1, wrap64_small (by omega) (by omega)]; rw [show maxAlloc = 281474976710656 from rfl]; omega)]
    rw [Sink.write_plain rfl, Sink.write_plain rfl, Sink.write_plain rfl]
    simp only [glbBytes, chunkOf, jsonPadding, binChunk, Option.map_some, Option.isSome_some, List.append_assoc]

theorem glbHeader_length (n : Nat) (b : Option Int) : (glbHeader n b).length = 20 := by
  unfold glbHeader; simp only [List.length_append]; rfl

theorem jsonPadding_eq {n : Nat} : jsonPadding n = List.replicate ((n + 3) / 4 * 4 - n) 32 := by
  unfold jsonPadding jsonPadded size32
  congr 1
  omega

theorem glbBytes_length {text : Bytes} {first : Option Buffer} :
    (glbBytes text first).length = 20 + text.length + (jsonPadding text.length).length + (chunkOf first).length := by
  unfold glbBytes
  simp only [List.length_append, glbHeader_length]

theorem binChunk_length {b : Buffer} : (binChunk b).length = 8 + b.data.length + (wrap64 (binPadded b.byteLength - b.byteLength)).toNat := by
  unfold binChunk
  simp only [List.length_append, List.length_replicate]
  rfl

/-- What is written is a GLB file. -/
theorem glbBytes_isGlb {text : Bytes} {first : Option Buffer} (hl : (glbBytes text first).length < 4294967296)
    (hb : ∀ b ∈ first, (b.data.length : Int) = b.byteLength) :
    IsGlb text (first.map (·.data)) (glbBytes text first) := by
  have hlen := glbBytes_length (text := text) (first := first)
  have hp : jsonPadding text.length = List.replicate ((text.length + 3) / 4 * 4 - text.length) 32 := jsonPadding_eq
  have e1 := hlen
  rw [hp, List.length_replicate] at e1
  have hj : jsonPadded text.length = (text.length + 3) / 4 * 4 := by
    unfold jsonPadded size32
    omega
  have hchunk : IsChunk b!"JSON" 32 text (putLe32 (jsonPadded text.length) ++ putLe32 glbChunkJSON ++ text ++ jsonPadding text.length) := by
    refine ⟨putLe32 (jsonPadded text.length), (text.length + 3) / 4 * 4 - text.length, ?_, by omega, by omega, ?_⟩
    · rw [hp, show putLe32 glbChunkJSON = b!"JSON" by decide]
    · have := leNat_putLe32 (n := jsonPadded text.length) (by omega)
      rw [hj] at this ⊢
      rwa [show text.length + ((text.length + 3) / 4 * 4 - text.length) = (text.length + 3) / 4 * 4 by omega]
  cases first with
  | none =>
    simp only [chunkOf, List.length_nil] at e1
    refine ⟨putLe32 2, putLe32 ((20 + jsonPadded text.length) % size32), _, [], ?_, leNat_putLe32 (by decide), ?_, hchunk, rfl⟩
    · unfold glbBytes glbHeader chunkOf
      simp only [Option.map_none, List.append_nil, List.append_assoc]
      rfl
    · rw [hj]
      have := leNat_putLe32 (n := (20 + (text.length + 3) / 4 * 4) % size32) (by unfold size32; omega)
      rw [show (glbBytes text none).length = (20 + (text.length + 3) / 4 * 4) % size32 by rw [e1]; unfold size32; omega]
      exact this
  | some b =>
    simp only [chunkOf, binChunk_length] at e1
    have hbl := hb b rfl
    have h0 : 0 ≤ b.byteLength := by omega
    have h1 : b.byteLength < 4294967296 := by omega
    have hbp := binPadded_small h0 h1
    have hz : (wrap64 (binPadded b.byteLength - b.byteLength)).toNat = (b.data.length + 3) / 4 * 4 - b.data.length := by
      rw [hbp, wrap64_small (by omega) (by omega)]; omega
    rw [hz] at e1
    have hu : uint32 (binPadded b.byteLength) = (b.data.length + 3) / 4 * 4 := by
      rw [hbp, uint32_small (by omega) (by omega)]; omega
    have hu2 : uint32 (wrap64 (8 + binPadded b.byteLength)) = 8 + (b.data.length + 3) / 4 * 4 := by
      rw [hbp, wrap64_small (by omega) (by omega), uint32_small (by omega) (by omega)]; omega
    refine ⟨putLe32 2, putLe32 (((20 + jsonPadded text.length) % size32 + uint32 (wrap64 (8 + binPadded b.byteLength))) % size32), _,
      binChunk b, ?_, leNat_putLe32 (by decide), ?_, hchunk, ?_⟩
    · unfold glbBytes glbHeader chunkOf
      simp only [Option.map_some, List.append_assoc]
      rfl
    · rw [hj, hu2]
      have := leNat_putLe32 (n := ((20 + (text.length + 3) / 4 * 4) % size32 + (8 + (b.data.length + 3) / 4 * 4)) % size32)
        (by unfold size32; omega)
      rw [show (glbBytes text (some b)).length = ((20 + (text.length + 3) / 4 * 4) % size32 + (8 + (b.data.length + 3) / 4 * 4)) % size32 by
        rw [e1]; unfold size32; omega]
      exact this
    · show IsChunk _ _ b.data _
      refine ⟨putLe32 (uint32 (binPadded b.byteLength)), (b.data.length + 3) / 4 * 4 - b.data.length, ?_, by omega, by omega, ?_⟩
      · unfold binChunk
        rw [hz, show putLe32 glbChunkBIN = b!"BIN\x00" by decide]
      · rw [hu]
        have := leNat_putLe32 (n := (b.data.length + 3) / 4 * 4) (by omega)
        rwa [show b.data.length + ((b.data.length + 3) / 4 * 4 - b.data.length) = (b.data.length + 3) / 4 * 4 by omega]

end Gltf
