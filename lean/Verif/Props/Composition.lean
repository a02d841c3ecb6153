import Verif.Props.Access
import Verif.SpecIntro
/-!
# Composition data (C27)
-/
namespace BM.Props
open Tables F Spec
variable [Platform]

/-- A 16-bit number, least significant byte first. -/
def le16 (n : Nat) : List UInt8 := [UInt8.ofNat (n % 256), UInt8.ofNat (n / 256)]

omit [Platform] in
theorem le16_eq {n : Nat} (h : n < 65536) : leBytes 2 n = le16 n := by
  simp only [leBytes, le16, List.cons.injEq, and_true, true_and]
  apply UInt8.toNat.inj
  simp

/-- An element of a node: its location and its models. -/
structure Element where
  location : Nat
  sig : List Nat
  vendor : List (Nat × Nat)

/-- Numbers fit their fields; the location is one of the assigned numbers. -/
def Element.Ok (e : Element) : Prop :=
  e.location < 65536 ∧ GATTNamespaceDescriptor.has e.location = true ∧ e.sig.length < 256 ∧ e.vendor.length < 256 ∧
  (∀ m ∈ e.sig, m < 65536) ∧ ∀ m ∈ e.vendor, m.1 < 65536 ∧ m.2 < 65536
where GATTNamespaceDescriptor := E.GATTNamespaceDescriptor

def sigModels (e : Element) : Val := .list (e.sig.map fun (m : Nat) => .dict [("model_id", .int (m : Int))])
def vendorModels (e : Element) : Val := .list (e.vendor.map fun m => .dict [("vendor_id", .int m.1), ("model_id", .int m.2)])

/-- The user's object for an element; the count fields may hold anything. -/
def Element.object (e : Element) (x y : Val) : Val :=
  .dict [("location", .int e.location), ("sig_number", x), ("vendor_number", y), ("sig_models", sigModels e), ("vendor_models", vendorModels e)]

/-- What is reported for an element. -/
def Element.reported (e : Element) : Val :=
  .dict [("location", .enum "GATTNamespaceDescriptor" e.location), ("sig_number", .int e.sig.length), ("vendor_number", .int e.vendor.length),
    ("sig_models", sigModels e), ("vendor_models", vendorModels e)]

/-- The bytes of an element (Mesh Profile, table 4.4). -/
def Element.bytes (e : Element) : List UInt8 :=
  le16 e.location ++ ([UInt8.ofNat e.sig.length, UInt8.ofNat e.vendor.length] ++ (e.sig.flatMap le16 ++ e.vendor.flatMap fun m => le16 m.1 ++ le16 m.2))

omit [Platform] in
theorem element_fmt {e : Element} (h : e.Ok) (x y : Val) : page0Element (e.object x y) e.bytes e.reported := by
  obtain ⟨h1, h2, h3, h4, h5, h6⟩ := h
  refine record_mk (seq_cons (fld_mk (by rfl) (le16_eq h1 ▸ enumOf_mk h1 h2 rfl)) (d₂ := [_, _, _, _]) ?_)
  refine seq_one ?_
  refine ⟨_, _, _, _, _, _, _, _, rfl, rfl, by simpa using h3, many_map _ le16 (fun (m : Nat) => .dict [("model_id", .int (m : Int))]) _ ?_, rfl, rfl, by simpa using h4,
    many_map _ (fun m => le16 m.1 ++ le16 m.2) (fun m => .dict [("vendor_id", .int m.1), ("model_id", .int m.2)]) _ ?_, ?_, ?_⟩
  · intro m hm
    have := seq_cons (fld_mk (du := [("model_id", .int (m : Int))]) (k := "model_id") rfl (uint_mk (n := 2) (h5 m hm))) seq_nil
    rw [List.append_nil, List.append_nil, le16_eq (h5 m hm)] at this
    exact record_mk this
  · intro m hm
    have h := seq_cons (fld_mk (du := [("vendor_id", .int m.1), ("model_id", .int m.2)]) (k := "vendor_id") rfl (uint_mk (n := 2) (h6 m hm).1))
      (seq_cons (fld_mk (du := [("vendor_id", .int m.1), ("model_id", .int m.2)]) (k := "model_id") rfl (uint_mk (n := 2) (h6 m hm).2)) seq_nil)
    rw [List.append_nil, List.append_nil, le16_eq (h6 m hm).1, le16_eq (h6 m hm).2] at h
    exact record_mk h
  · simp
  · simp [sigModels, vendorModels]

/-- The object of a composition data status message for page `n` with contents `v` under `key`. -/
def pageObject (n : Nat) (key : String) (v : Val) : Dict :=
  [("opcode", .int 2), ("config_composition_data_status", .dict [("page", .int n), (key, v)])]

/-- What is reported for such a message. -/
def pageReported (cls : String) (n : Nat) (key : String) (v : Val) : Val :=
  .dict [("opcode", .enum cls 2), ("config_composition_data_status", .dict [("page", .enum "CompositionDataPage" n), (key, v)])]

theorem page_roundtrip {n : Nat} {key : String} {G : Fmt UInt8} (hT : (⟨n, key, G⟩ : Tagged) ∈ ([
    ⟨0, "zero", page0⟩, ⟨1, "first", page1⟩, ⟨2, "second", page2⟩, ⟨255, "two_hundred_and_fifty_fifth", rest⟩] : List Tagged)) (hk : key ≠ "page")
    {u b v} (h : G u b v) (L : Lib) :
    (∃ o, accessBuild registry L (.dict (pageObject n key u)) = .ok (0x02 :: UInt8.ofNat n :: b, o)) ∧
    ∃ cls, accessParse registry L (0x02 :: UInt8.ofNat n :: b) = .ok (pageReported cls n key v, []) := by
  have hm : compositionLossless.head (by simp [compositionLossless]) ∈ Spec.messages :=
    List.mem_append_left _ (List.mem_append_left _ (List.mem_append_right _ (List.mem_append_left _ (List.head_mem _))))
  have := C05_encode_decode hm (u := .dict [("page", .int n), (key, u)]) (b := UInt8.ofNat n :: b)
    (v := .dict [("page", .enum "CompositionDataPage" n), (key, v)])
    ⟨_, .int n, u, v, b, ⟨n, key, G⟩, hT, rfl, rfl, rfl, by simp [dget, Ne.symm hk], h, rfl, rfl⟩ L (d := pageObject n key u) (k := .int 2)
    rfl (.inl rfl) rfl
  obtain ⟨hb, cls, scls, hp⟩ := this
  exact ⟨hb, cls, hp⟩

/-- **C27 (page 0).** Composition data page 0 is written as five 16-bit numbers and the elements, the counts of models being
those of the lists, whatever the count fields of the object hold; it is read back with the same lists and the true counts. -/
theorem C27_page0 {cid pid vid crpl features : Nat} (h1 : cid < 65536) (h2 : pid < 65536) (h3 : vid < 65536) (h4 : crpl < 65536)
    (h5 : features < 65536) {es : List (Element × Val × Val)} (h : ∀ e ∈ es, e.1.Ok) (L : Lib) :
    let wire := 0x02 :: 0x00 :: (le16 cid ++ (le16 pid ++ (le16 vid ++ (le16 crpl ++ (le16 features ++ es.flatMap fun e => e.1.bytes)))))
    let obj (l : List Val) : Val := .dict [("cid", .int cid), ("pid", .int pid), ("vid", .int vid), ("crpl", .int crpl), ("features", .int features),
      ("elements", .list l)]
    (∃ o, accessBuild registry L (.dict (pageObject 0 "zero" (obj (es.map fun e => e.1.object e.2.1 e.2.2)))) = .ok (wire, o)) ∧
    ∃ cls, accessParse registry L wire = .ok (pageReported cls 0 "zero" (obj (es.map fun e => e.1.reported)), []) := by
  intro wire obj
  refine page_roundtrip (G := page0) (n := 0) (List.Mem.head _) (by decide) (record_mk ?_) L
  refine seq_cons (fld_mk rfl (le16_eq h1 ▸ uint_mk h1)) (d₂ := [_, _, _, _, _]) ?_
  refine seq_cons (fld_mk rfl (le16_eq h2 ▸ uint_mk h2)) (d₂ := [_, _, _, _]) ?_
  refine seq_cons (fld_mk rfl (le16_eq h3 ▸ uint_mk h3)) (d₂ := [_, _, _]) ?_
  refine seq_cons (fld_mk rfl (le16_eq h4 ▸ uint_mk h4)) (d₂ := [_, _]) ?_
  refine seq_cons (fld_mk rfl (le16_eq h5 ▸ uint_mk h5)) (d₂ := [_]) (seq_one (fld_mk rfl ?_))
  exact listOf_map _ _ _ _ fun e he => element_fmt (h e he) _ _

/-! ### Page 1 -/

/-- A model of an element in page 1: its extended model items (index and element offset), in the long or the short format, and the
corresponding group identifier. -/
structure Relations where
  long : Bool
  items : List (Nat × Int)
  corresponding : Option Nat

def Relations.Ok (r : Relations) : Prop :=
  r.items.length < 64 ∧ (∀ c, r.corresponding = some c → c < 256) ∧
  ∀ i ∈ r.items, if r.long then i.1 < 256 ∧ -128 ≤ i.2 ∧ i.2 < 128 else i.1 < 32 ∧ -4 ≤ i.2 ∧ i.2 < 4

def itemObject (i : Nat × Int) : Val := .dict [("model_item_index", .int i.1), ("element_offset", .int i.2)]

/-- Two's complement in a byte. -/
def signedByte (k : Int) : UInt8 := UInt8.ofNat (k % 256).toNat

def Relations.itemBytes (r : Relations) (i : Nat × Int) : List UInt8 :=
  if r.long then [UInt8.ofNat i.1, signedByte i.2] else [UInt8.ofNat (i.1 * 8 + (i.2 % 8).toNat)]

def Relations.key (r : Relations) : String := if r.long then "long" else "short"

def Relations.body (r : Relations) (count format : Val) (present id : Int) : Val :=
  .dict [("extended_items_count", count), ("format", format), ("corresponding_present", .int present), ("corresponding_id", .int id),
    ("extended_models_items", .dict [(r.key, .list (r.items.map itemObject))])]

/-- The user's object; the count may hold anything, and so may the identifier if there is none. -/
def Relations.object (r : Relations) (x : Val) (junk : Int) : Val :=
  r.body x (.int r.long.toNat) r.corresponding.isSome.toNat (match r.corresponding with | some c => c | none => junk)

def Relations.reported (r : Relations) : Val :=
  r.body (.int r.items.length) (.enum "ExtendedModelsItemFormat" r.long.toNat) r.corresponding.isSome.toNat (match r.corresponding with | some c => c | none => 0)

def Relations.bytes (r : Relations) : List UInt8 :=
  UInt8.ofNat (r.items.length * 4 + r.long.toNat * 2 + r.corresponding.isSome.toNat) ::
    ((match r.corresponding with | some c => [UInt8.ofNat c] | none => []) ++ r.items.flatMap r.itemBytes)

omit [Platform] in
theorem sint1_mk {k : Int} (h1 : -128 ≤ k) (h2 : k < 128) : sint 1 (.int k) [signedByte k] (.int k) := by
  refine ⟨k, rfl, rfl, ?_, rfl⟩
  have h : leNat [signedByte k] = (k % 256).toNat := by
    have : (k % 256).toNat < 256 := by omega
    simp [leNat, signedByte, Nat.mod_eq_of_lt this]
  rw [h, toSigned]
  split <;> omega

omit [Platform] in
theorem uint1_mk {k : Nat} (h : k < 256) : uint 1 (.int k) [UInt8.ofNat k] (.int k) := by
  have := uint_mk (n := 1) (k := k) (by simpa using h)
  rwa [leBytes_one] at this

omit [Platform] in
theorem longItem_mk {i : Nat × Int} (h : i.1 < 256 ∧ -128 ≤ i.2 ∧ i.2 < 128) :
    longItem (itemObject i) [UInt8.ofNat i.1, signedByte i.2] (itemObject i) := by
  have := seq_cons (fld_mk (du := [("model_item_index", .int i.1), ("element_offset", .int i.2)]) (k := "model_item_index") rfl (uint1_mk h.1))
    (seq_one (fld_mk (k := "element_offset") rfl (sint1_mk h.2.1 h.2.2)))
  exact record_mk this

omit [Platform] in
theorem shortItem_mk {i : Nat × Int} (h : i.1 < 32 ∧ -4 ≤ i.2 ∧ i.2 < 4) :
    shortItem (itemObject i) [UInt8.ofNat (i.1 * 8 + (i.2 % 8).toNat)] (itemObject i) := by
  obtain ⟨h1, h2, h3⟩ := h
  refine ⟨rfl, ?_⟩
  have hb : bytesBits [UInt8.ofNat (i.1 * 8 + (i.2 % 8).toNat)] = natBits 5 i.1 ++ natBits 3 (i.2 % 8).toNat := by
    have hlt : (i.2 % 8).toNat < 8 := by omega
    rw [bytesBits_cons, show bytesBits [] = [] from rfl, List.append_nil, show (UInt8.ofNat (i.1 * 8 + (i.2 % 8).toNat)).toNat = i.1 * 2 ^ 3 + (i.2 % 8).toNat from ?_]
    · exact (natBits_add (n := 5) (m := 3) h1 hlt)
    · simp; omega
  rw [hb]
  have hlt : (i.2 % 8).toNat < 2 ^ 3 := by omega
  exact record_mk (seq_cons (fld_mk (du := [("model_item_index", .int i.1), ("element_offset", .int i.2)]) (k := "model_item_index") rfl
    ⟨i.1, rfl, natBits_length _ _, bitsNat_natBits _ _ h1, rfl⟩)
    (seq_one (fld_mk (k := "element_offset") rfl ⟨i.2, rfl, natBits_length _ _, by
      rw [bitsNat_natBits _ _ hlt, toSigned]; split <;> omega, rfl⟩)))

omit [Platform] in
theorem relation_fmt {r : Relations} (h : r.Ok) (x : Val) (junk : Int) : relationItem (r.object x junk) r.bytes r.reported := by
  obtain ⟨h1, h2, h3⟩ := h
  obtain ⟨long, items, corr⟩ := r
  simp only at h1 h2 h3
  cases long
  · refine ⟨_, _, _, .int (match corr with | some c => c | none => junk), _, _, _, _, items.map itemObject, items.flatMap fun i => [UInt8.ofNat (i.1 * 8 + (i.2 % 8).toNat)],
      (match corr with | some c => [UInt8.ofNat c] | none => []), 0, corr.isSome.toNat, (match corr with | some c => c | none => 0),
      "short", shortItem, rfl, rfl, rfl, .inl ⟨rfl, rfl, rfl⟩, rfl, rfl, ?_, ?_, ?_, rfl, rfl, rfl, ⟨rfl, _, rfl, rfl⟩, by simpa using h1,
      many_map itemObject (fun i => [UInt8.ofNat (i.1 * 8 + (i.2 % 8).toNat)]) itemObject items fun i hi => shortItem_mk (by simpa using h3 i hi), ?_, ?_⟩
    · cases corr <;> simp
    · cases corr <;> rfl
    · cases corr with
      | none => exact .inl ⟨rfl, rfl, rfl⟩
      | some c => exact .inr ⟨rfl, rfl, h2 c rfl, rfl⟩
    · cases corr <;> simp [Relations.bytes] <;> exact congrArg (fun f => List.flatMap f items) (funext fun i => by simp [Relations.itemBytes])
    · cases corr <;> simp [Relations.reported, Relations.body, Relations.key]
  · refine ⟨_, _, _, .int (match corr with | some c => c | none => junk), _, _, _, _, items.map itemObject, items.flatMap fun i => [UInt8.ofNat i.1, signedByte i.2],
      (match corr with | some c => [UInt8.ofNat c] | none => []), 1, corr.isSome.toNat, (match corr with | some c => c | none => 0),
      "long", longItem, rfl, rfl, rfl, .inr ⟨rfl, rfl, rfl⟩, rfl, rfl, ?_, ?_, ?_, rfl, rfl, rfl, ⟨rfl, _, rfl, rfl⟩, by simpa using h1,
      many_map itemObject (fun i => [UInt8.ofNat i.1, signedByte i.2]) itemObject items fun i hi => longItem_mk (by simpa using h3 i hi), ?_, ?_⟩
    · cases corr <;> simp
    · cases corr <;> rfl
    · cases corr with
      | none => exact .inl ⟨rfl, rfl, rfl⟩
      | some c => exact .inr ⟨rfl, rfl, h2 c rfl, rfl⟩
    · cases corr <;> simp [Relations.bytes] <;> exact congrArg (fun f => List.flatMap f items) (funext fun i => by simp [Relations.itemBytes])
    · cases corr <;> simp [Relations.reported, Relations.body, Relations.key]

/-- The models of an element in page 1: those of the Bluetooth SIG and those of vendors. -/
structure ElementRelations where
  sig : List Relations
  vendor : List Relations

def ElementRelations.Ok (e : ElementRelations) : Prop :=
  e.sig.length < 256 ∧ e.vendor.length < 256 ∧ (∀ r ∈ e.sig, r.Ok) ∧ ∀ r ∈ e.vendor, r.Ok

/-- The user's object: the counts (`x`, `y` and those chosen by `c`), and the identifiers of models without one (`j`), may hold anything. -/
def ElementRelations.object (e : ElementRelations) (x y : Val) (c : Relations → Val) (j : Relations → Int) : Val :=
  .dict [("number_s", x), ("number_v", y), ("sig_models", .list (e.sig.map fun r => r.object (c r) (j r))),
    ("vendor_models", .list (e.vendor.map fun r => r.object (c r) (j r)))]

def ElementRelations.reported (e : ElementRelations) : Val :=
  .dict [("number_s", .int e.sig.length), ("number_v", .int e.vendor.length), ("sig_models", .list (e.sig.map Relations.reported)),
    ("vendor_models", .list (e.vendor.map Relations.reported))]

def ElementRelations.bytes (e : ElementRelations) : List UInt8 :=
  UInt8.ofNat e.sig.length :: UInt8.ofNat e.vendor.length :: (e.sig.flatMap Relations.bytes ++ e.vendor.flatMap Relations.bytes)

/-- **C27 (page 1).** Composition data page 1 holds, for every element, the numbers of its models and for every model its
extended model items in one of two formats, with their number, and the corresponding group identifier if there is one.  The
numbers written are those of the lists, whatever the object says, and what is reported has the same lists and the true numbers. -/
theorem C27_page1 {es : List (ElementRelations × Val × Val)} (c : Relations → Val) (j : Relations → Int) (h : ∀ e ∈ es, e.1.Ok) (L : Lib) :
    let wire := 0x02 :: 0x01 :: es.flatMap fun e => e.1.bytes
    let obj (l : List Val) : Val := .dict [("element", .list l)]
    (∃ o, accessBuild registry L (.dict (pageObject 1 "first" (obj (es.map fun e => e.1.object e.2.1 e.2.2 c j)))) = .ok (wire, o)) ∧
    ∃ cls, accessParse registry L wire = .ok (pageReported cls 1 "first" (obj (es.map fun e => e.1.reported)), []) := by
  intro wire obj
  refine page_roundtrip (G := page1) (n := 1) (List.Mem.tail _ (List.Mem.head _)) (by decide) (record_mk (seq_one (fld_mk rfl ?_))) L
  refine listOf_map _ _ _ _ fun e he => record_mk (seq_one ?_)
  obtain ⟨h1, h2, h3, h4⟩ := h e he
  exact ⟨_, _, _, _, _, _, _, _, rfl, rfl, by simpa using h1, many_map _ Relations.bytes Relations.reported _ fun r hr => relation_fmt (h3 r hr) _ _,
    rfl, rfl, by simpa using h2, many_map _ Relations.bytes Relations.reported _ fun r hr => relation_fmt (h4 r hr) _ _,
    by simp [ElementRelations.bytes], by simp⟩

/-! ### Page 2 -/

/-- A supported mesh profile. -/
structure Profile where
  id : Nat
  version : Nat × Nat × Nat
  offsets : List Nat
  additional : List Nat

def Profile.Ok (p : Profile) : Prop :=
  p.id < 65536 ∧ p.version.1 < 256 ∧ p.version.2.1 < 256 ∧ p.version.2.2 < 256 ∧ p.offsets.length < 256 ∧ p.additional.length < 65536 ∧
  (∀ x ∈ p.offsets, x < 256) ∧ ∀ x ∈ p.additional, x < 256

def Profile.object (p : Profile) (x y : Val) : Val := .dict [
  ("mesh_profile_identifier", .int p.id), ("version", .dict [("version_x", .int p.version.1), ("version_y", .int p.version.2.1), ("version_z", .int p.version.2.2)]),
  ("num_element_offsets", x), ("element_offset_list", .list (p.offsets.map fun (n : Nat) => .int (n : Int))),
  ("additional_data_len", y), ("additional_data", .list (p.additional.map fun (n : Nat) => .int (n : Int)))]

def Profile.bytes (p : Profile) : List UInt8 :=
  le16 p.id ++ ([UInt8.ofNat p.version.1, UInt8.ofNat p.version.2.1, UInt8.ofNat p.version.2.2] ++
    ((UInt8.ofNat p.offsets.length :: p.offsets.map UInt8.ofNat) ++ (le16 p.additional.length ++ p.additional.map UInt8.ofNat)))

omit [Platform] in
theorem bytes_many {xs : List Nat} (h : ∀ x ∈ xs, x < 256) :
    manyRel (uint 1) (xs.map fun (n : Nat) => .int (n : Int)) (xs.map UInt8.ofNat) (xs.map fun (n : Nat) => .int (n : Int)) := by
  have := many_map (G := uint 1) (fun (n : Nat) => .int (n : Int)) (fun n => [UInt8.ofNat n]) (fun (n : Nat) => .int (n : Int)) xs fun n hn => uint1_mk (h n hn)
  rwa [show (xs.flatMap fun n => [UInt8.ofNat n]) = xs.map UInt8.ofNat from List.flatMap_pure_eq_map _ _] at this

omit [Platform] in
theorem profile_fmt {p : Profile} (h : p.Ok) (x y : Val) : record [
    u16 "mesh_profile_identifier", fld "version" (record [u8 "version_x", u8 "version_y", u8 "version_z"]),
    counted 1 "num_element_offsets" "element_offset_list" (uint 1), counted 2 "additional_data_len" "additional_data" (uint 1)]
    (p.object x y) p.bytes (p.object (.int p.offsets.length) (.int p.additional.length)) := by
  obtain ⟨h1, h2, h3, h4, h5, h6, h7, h8⟩ := h
  refine record_mk (seq_cons (fld_mk (by rfl) (le16_eq h1 ▸ uint_mk h1)) (d₂ := [_, _, _, _, _]) ?_)
  refine seq_cons (fld_mk (by rfl) ?_) (d₂ := [_, _, _, _]) ?_
  · have := seq_cons (fld_mk (du := [("version_x", .int p.version.1), ("version_y", .int p.version.2.1), ("version_z", .int p.version.2.2)]) (k := "version_x") rfl (uint1_mk h2))
      (seq_cons (fld_mk (k := "version_y") rfl (uint1_mk h3)) (seq_one (fld_mk (k := "version_z") rfl (uint1_mk h4))))
    exact record_mk this
  refine seq_cons (d₁ := [_, _]) (d₂ := [_, _]) ?_ (seq_one ?_)
  · exact ⟨_, _, _, _, rfl, rfl, by simpa using h5, bytes_many h7, by simp [leBytes_one], by simp⟩
  · exact ⟨_, _, _, _, rfl, rfl, by simpa using h6, bytes_many h8, by simp [le16_eq h6], by simp⟩

/-- **C27 (page 2).** Composition data page 2 holds the supported mesh profiles; the counts are those of the lists. -/
theorem C27_page2 {ps : List (Profile × Val × Val)} (h : ∀ p ∈ ps, p.1.Ok) (L : Lib) :
    let wire := 0x02 :: 0x02 :: ps.flatMap fun p => p.1.bytes
    let obj (l : List Val) : Val := .dict [("record_list", .list l)]
    (∃ o, accessBuild registry L (.dict (pageObject 2 "second" (obj (ps.map fun p => p.1.object p.2.1 p.2.2)))) = .ok (wire, o)) ∧
    ∃ cls, accessParse registry L wire =
      .ok (pageReported cls 2 "second" (obj (ps.map fun p => p.1.object (.int p.1.offsets.length) (.int p.1.additional.length))), []) := by
  intro wire obj
  refine page_roundtrip (G := page2) (n := 2) (List.Mem.tail _ (List.Mem.tail _ (List.Mem.head _))) (by decide) (record_mk (seq_one (fld_mk rfl ?_))) L
  exact listOf_map _ _ _ _ fun p hp => profile_fmt (h p hp) _ _

/-- A lighting node with a scene server and a vendor model. -/
example : (Element.mk 0x0100 [0x1300, 0x1203] [(0x0136, 0x0001)]).Ok := by
  refine ⟨by decide, by decide +kernel, by decide, by decide, ?_, ?_⟩ <;> simp
example : (Element.mk 0x0100 [0x1300, 0x1203] [(0x0136, 0x0001)]).bytes =
    [0x00, 0x01, 2, 1, 0x00, 0x13, 0x03, 0x12, 0x36, 0x01, 0x01, 0x00] := by decide
/-- A model extending another one of the previous element and one of its own. -/
example : (Relations.mk false [(2, -1), (3, 0)] (some 7)).Ok := by
  refine ⟨by decide, by simp, ?_⟩
  simp
example : (Relations.mk false [(2, -1), (3, 0)] (some 7)).bytes = [9, 7, 0x17, 0x18] := by decide
example : (Relations.mk true [(200, -100)] none).bytes = [6, 200, 156] := by decide
example : (Profile.mk 0x1600 (1, 0, 0) [0] []).Ok ∧ (Profile.mk 0x1600 (1, 0, 0) [0] []).bytes = [0, 0x16, 1, 0, 0, 1, 0, 0, 0] := by
  refine ⟨⟨by decide, by decide, by decide, by decide, by decide, by decide, ?_, ?_⟩, by decide⟩ <;> simp

end BM.Props
