/-
Property C103: a file is opened, more data is written, it is saved and opened again.
-/
import Verif.Props.Mesh
import Verif.Props.Data
import Verif.Props.Reencode

namespace Gltf

open Spec

/-- Of the buffers that `Decode` returns only the first can be without URI; such a buffer has as many bytes as it says. -/
theorem from_noUri {file : Bytes} {files : Option (Bytes → Bytes × Option Err)} {first : Bool} {l : List (Option Buffer)}
    (h : AllFrom file files first l) (hu : ∀ b, some b ∈ l → b.uri = []) :
    l = [] ∨ ∃ b, l = [some b] ∧ b.uri = [] ∧ b.byteLength = b.data.length ∧ 0 < b.byteLength := by
  have one : ∀ {first : Bool} {b : Buffer}, DataFrom file files first b → b.uri = [] →
      first = true ∧ b.byteLength = b.data.length ∧ 0 < b.byteLength := by
    intro first b h h0
    cases h with
    | chunk _ _ _ h1 _ _ _ _ _ _ _ h2 h3 => exact ⟨h1, h3.symm, h2⟩
    | embedded c t h1 => rw [h0] at h1; cases h1
    | file _ _ h1 => exact absurd h0 h1
    | noFile h1 => exact absurd h0 h1
  match l, h with
  | [], _ => exact .inl rfl
  | [some b], h =>
    have hb := hu b (by simp)
    exact .inr ⟨b, rfl, hb, (one h.1 hb).2⟩
  | some _ :: some c :: _, h =>
    have := (one h.2.1 (hu c (by simp))).1
    cases this

/-- C103: a file whose buffers have no URIs, that is a GLB file with its data in the binary chunk or a file without data, is decoded;
then the writing functions are called any number of times. The result is encoded, in either format, and decoded; all accessors, those of
the first file and the new ones, are there and read as before. -/
theorem C103_edit (E : DecEnv) (hf : FloatLaws E.json.io) (hp : FiniteParse E.json.io) (hr : LawfulRegistry E.json.reg 9993)
    (s0 : Source) (doc : Document) (h : (decodeSource E s0).result = .ok doc) (hd : NestedLe 9993 s0.data)
    (hc : CamerasComplete doc) (hut : ∀ im, some im ∈ doc.images → IsUtf8 im.uri) (hnu : NoUris doc)
    (doc1 : Document) (hist : PlainHistory doc doc1)
    (hb : ∀ b, some b ∈ doc1.buffers → b.data ≠ [] ∧ b.data.length < 4294967296) (hv : doc1.bufferViews.length < 9223372036854775808)
    (o : EncOpts) (h1 : IsBlank o.pre) (h2 : IsBlank o.indent) (fs : Option CreateFS)
    (hl : (encode E.json E.url o doc1 {} fs).sink.out.length < 4294967296) (s : Source)
    (hs : s.data = (encode E.json E.url o doc1 {} fs).sink.out) (ha : o.asBinary = true → ∀ c ∈ s.sizes, (c.2 + 1) % 4 = 0) :
    (encode E.json E.url o doc1 {} fs).result = .ok () ∧
    ∃ doc', (decodeSource E s).result = .ok doc' ∧ SameDocument o.asBinary doc1 doc' ∧
      (∀ acr buffer p, readAccessor doc' acr buffer p = readAccessor doc1 acr buffer p) ∧
      ∀ (i : Nat) (acr : Accessor), doc.accessors[i]? = some (some acr) → doc'.accessors[i]? = some (some acr) ∧
        ∀ buffer p r, readAccessor doc acr buffer p = .ok r → readAccessor doc' acr buffer p = .ok r := by
  have hbuf := from_noUri (C99_data E s0 doc h).1 hnu
  obtain ⟨v1, -, v3⟩ := C62_decoded_valid E hp 9993 hr s0 doc h hd hc
    ⟨fun b hm => by rw [hnu b hm]; exact utf8Nil, hut⟩
  have g0 : Growable E.json.reg 9993 o.asBinary doc := by
    refine ⟨v1, v3, ?_⟩
    rcases hbuf with h0 | ⟨b, h0, k1, k2, -⟩
    · exact .inl h0
    · exact .inr ⟨[], b, h0, trivial, .inl k1, k2⟩
  have hlen : doc1.buffers.length ≤ 1 := by
    rcases (C74_only_appends _ _ hist.history).2 with hl | ⟨p, hl⟩
    · rw [hl]; rcases hbuf with h0 | ⟨b, h0, -⟩ <;> rw [h0] <;> simp
    · rw [hl]; rcases hbuf with h0 | ⟨b, h0, -⟩ <;> rw [h0] <;> simp
  have g := hist.grow g0 (by omega) hv
  have hu : NoUris doc1 := noUri_history hnu hist.history
  have hwf : ∀ p ∈ doc1.buffers, ∃ b, p = some b ∧ b.byteLength = b.data.length := by
    rcases g.buffers with k | ⟨bs, b, k, -, -, k4⟩
    · rw [k]; intro p hp; cases hp
    · have : bs = [] := by
        rw [k, List.length_append] at hlen
        simpa using hlen
      subst this
      rw [k]
      intro p hp
      exact ⟨b, by simpa using hp, k4⟩
  have hsv : Saveable E 9993 o.asBinary doc1 :=
    ⟨by decide, g.ok, stored_noUri (grow_storable g fun b hl => (hb b (List.mem_of_getLast? hl)).1) hu, g.images⟩
  have hres : (encode E.json E.url o doc1 {} fs).result = .ok () := by
    obtain ⟨e1, -⟩ := encode_noUri (E := E.json) (U := E.url) (o := o) (w := {})
      (fun hn => by obtain ⟨b, e, -⟩ := hwf _ hn; cases e) hu fs
    rw [e1]
    refine C31_encodes E hf o 9993 doc1 hsv (fun b hh => ?_) {} rfl none (by simp)
    have hm := List.mem_of_head? hh
    obtain ⟨b', e, hl⟩ := hwf _ hm
    cases e
    have := (hb b hm).2
    omega
  have key : ∃ doc', (decodeSource E s).result = .ok doc' ∧ SameDocument o.asBinary doc1 doc' := by
    cases ho : o.asBinary with
    | false =>
      rw [ho] at hsv
      obtain ⟨doc', k1, k2, -⟩ := C39_round_trip_partial E hf o ho h1 h2 9993 doc1 hsv fs hres s [] (by rw [List.append_nil]; exact hs)
      exact ⟨doc', k1, k2⟩
    | true =>
      rw [ho] at hsv
      exact C31_glb_round_trip E hf o ho h1 h2 9993 doc1 hsv fs hres hl s hs (.inl (ha ho))
  obtain ⟨doc', k1, k2⟩ := key
  obtain ⟨q1, -, q3, -⟩ := C49_reads_same _ _ _ k2
  refine ⟨hres, doc', k1, k2, q3, fun i acr hi => ⟨?_, fun buffer p r hr => ?_⟩⟩
  · rw [q1]; exact hist.history.extends.accessor hi
  · rw [q3]; exact hist.history.extends.readAccessor hr

/-! ### An example -/

/-- A GLB file with four numbers in its binary chunk. -/
def editText : Bytes :=
  b!"{\"accessors\":[{\"bufferView\":0,\"componentType\":5121,\"count\":4,\"type\":\"SCALAR\"}]" ++
  b!",\"bufferViews\":[{\"buffer\":0,\"byteLength\":4}],\"buffers\":[{\"byteLength\":4}]}    "

def editGlb : Bytes :=
  b!"glTF" ++ [2, 0, 0, 0] ++ [UInt8.ofNat (12 + 8 + editText.length + 12), 0, 0, 0] ++ [UInt8.ofNat editText.length, 0, 0, 0] ++ b!"JSON" ++ editText ++
  [4, 0, 0, 0] ++ b!"BIN\x00" ++ [7, 8, 9, 10]

/-- The call that is made on the document. -/
def editOp : WriteOp := .accessor targetNone ⟨.base .u16 .sc, [1, 2]⟩

/-- What the hypotheses of `C103_edit` say about the document; the new data follows that of the file. -/
def editCheck (d : Document) : Bool :=
  d.cameras.isEmpty && d.images.isEmpty && (d.buffers.all fun o => o.all fun b => decide (b.uri = [])) && d.accessors.length = 1 &&
  !(editOp.run d).2.isPanic && decide ((editOp.run d).1.bufferViews.length < 9223372036854775808) &&
  decide ((editOp.run d).1.buffers.map (fun o => o.map (·.data)) = [some [7, 8, 9, 10, 1, 0, 2, 0]]) &&
  decide ((encode witnessDec.json witnessDec.url {} (editOp.run d).1 {} none).sink.out.length < 4294967296) &&
  (match decodeBytes witnessDec (encode witnessDec.json witnessDec.url {} (editOp.run d).1 {} none).sink.out with
    | .ok d' => decide (d'.accessors.length = 2)
    | _ => false)

theorem edit_sample : ∃ doc, (decodeSource witnessDec { data := editGlb }).result = .ok doc ∧ editCheck doc = true := by
  have h : (match decodeBytes witnessDec editGlb with | .ok d => editCheck d | _ => false) = true := by decide +kernel
  have e : decodeBytes witnessDec editGlb = (decodeSource witnessDec { data := editGlb }).result := rfl
  rw [← e]
  cases hd : decodeBytes witnessDec editGlb with
  | ok d => rw [hd] at h; exact ⟨d, rfl, h⟩
  | err e => rw [hd] at h; cases h
  | panic w => rw [hd] at h; cases h

/-- The hypotheses of `C103_edit` hold for a GLB file with data to which two numbers are written. -/
example : ∃ doc doc1, (decodeSource witnessDec { data := editGlb }).result = .ok doc ∧ NestedLe 9993 editGlb ∧ CamerasComplete doc ∧
    (∀ im, some im ∈ doc.images → IsUtf8 im.uri) ∧ NoUris doc ∧ doc.accessors.length = 1 ∧ PlainHistory doc doc1 ∧
    (∀ b, some b ∈ doc1.buffers → b.data = [7, 8, 9, 10, 1, 0, 2, 0]) ∧ doc1.buffers.length = 1 ∧
    doc1.bufferViews.length < 9223372036854775808 ∧
    (encode witnessDec.json witnessDec.url {} doc1 {} none).sink.out.length < 4294967296 ∧
    FloatLaws witnessDec.json.io ∧ FiniteParse witnessDec.json.io ∧ LawfulRegistry witnessDec.json.reg 9993 := by
  obtain ⟨doc, h, hk⟩ := edit_sample
  simp only [editCheck, Bool.and_eq_true, List.all_eq_true, decide_eq_true_eq, List.isEmpty_iff, Bool.not_eq_true'] at hk
  obtain ⟨⟨⟨⟨⟨⟨⟨⟨k1, k2⟩, k3⟩, k4⟩, k5⟩, k6⟩, k7⟩, k8⟩, -⟩ := hk
  refine ⟨doc, (editOp.run doc).1, h, nestedLe_length (by decide +kernel), fun c hc => ?_, fun im hm => ?_, fun b hb => ?_, k4,
    .step editOp trivial k5 (.nil _), fun b hb => ?_, ?_, k6, k8, exact_laws, C62_finite.2, C62_lawful.1⟩
  · rw [k1] at hc; cases hc
  · rw [k2] at hm; cases hm
  · simpa using k3 _ hb
  · have : some b.data ∈ (editOp.run doc).1.buffers.map (fun o => o.map (·.data)) := List.mem_map.2 ⟨_, hb, rfl⟩
    rw [k7] at this
    simpa using this
  · have := congrArg List.length k7
    simpa using this

end Gltf
