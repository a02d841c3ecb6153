import Verif.Props.CaseNames
import Verif.SpecAll
/-!
# Formats whose values survive the conversion of names

A value read from the air may be converted to a plain dictionary (camel-case keys, numbers instead of enumeration members, no private
entries) and back.  Here: which formats accept the outcome in place of the value itself.
-/
namespace BM
open F Case Props

mutual
/-- No byte string and no duration inside: their plain forms (hexadecimal digits, floating-point seconds) are not accepted in their place. -/
def NoRaw : Val → Prop
  | .bytes _ => False
  | .timedelta _ => False
  | .dict d => NoRawEntries d
  | .list l => NoRawList l
  | _ => True
def NoRawEntries : List (String × Val) → Prop
  | [] => True
  | (_, v) :: d => NoRaw v ∧ NoRawEntries d
def NoRawList : List Val → Prop
  | [] => True
  | v :: l => NoRaw v ∧ NoRawList l
end

/-- The plain form of a value of the format is accepted in its place. -/
def Flat {α} (G : Fmt α) : Prop := ∀ b v, G v b v → NoRaw v → Convertible v ∧ G (plainValue v) b v

/-- A key that survives. -/
def goodKey (k : String) : Bool := !isPrivate k && snakecase (camelcase k) == k

structure GoodKey (k : String) : Prop where
  pub : isPrivate k = false
  conv : snakecase (camelcase k) = k

theorem GoodKey.of {k} (h : goodKey k = true) : GoodKey k := by
  simp only [goodKey, Bool.and_eq_true, Bool.not_eq_true', beq_iff_eq] at h; exact ⟨h.1, h.2⟩

/-- The same check on the characters of the key. -/
def goodChars (s : List Char) : Bool := s.head? != some '_' && snakeChars (camelChars s) == s
theorem GoodKey.ofList {s : List Char} (h : goodChars s = true) : GoodKey (String.ofList s) := by
  simp only [goodChars, Bool.and_eq_true, bne_iff_ne, beq_iff_eq] at h
  exact ⟨by simp [isPrivate, h.1], by rw [roundtrip_chars, h.2]⟩

/-- The same for parts of records. -/
structure FlatI {α} (r : RI α) : Prop where
  keys : ∀ {du b dv}, r.rel du b dv → dkeys dv = r.keys
  flat : ∀ {du b dv}, r.rel du b dv → (∀ k v, (k, v) ∈ dv → isPrivate k = false → dget du k = some v) → NoRawEntries dv →
    ConvertibleEntries dv ∧ ∀ d', (∀ k v, (k, v) ∈ dv → isPrivate k = false → dget d' k = some (plainValue v)) → r.rel d' b dv

inductive FlatIs {α} : List (RI α) → Prop
  | nil : FlatIs []
  | cons {r rs} : FlatI r → FlatIs rs → FlatIs (r :: rs)

/-! ### Entries -/

theorem noRaw_append {d e : List (String × Val)} : NoRawEntries (d ++ e) ↔ NoRawEntries d ∧ NoRawEntries e := by
  induction d with
  | nil => simp [NoRawEntries]
  | cons kv d ih => obtain ⟨k, v⟩ := kv; simp [NoRawEntries, ih, and_assoc]

theorem noRaw_mem {d : List (String × Val)} (h : NoRawEntries d) {k v} (hm : (k, v) ∈ d) : NoRaw v := by
  induction d with
  | nil => simp at hm
  | cons kv d ih =>
    obtain ⟨k', v'⟩ := kv
    rw [NoRawEntries] at h
    rcases List.mem_cons.1 hm with e | hm
    · cases e; exact h.1
    · exact ih h.2 hm

theorem conv_append {d e : List (String × Val)} : ConvertibleEntries (d ++ e) ↔ ConvertibleEntries d ∧ ConvertibleEntries e := by
  induction d with
  | nil => simp [ConvertibleEntries]
  | cons kv d ih => obtain ⟨k, v⟩ := kv; simp [ConvertibleEntries, ih, and_assoc]

theorem dget_mem {d : Dict} (hn : (dkeys d).Nodup) {k v} (h : (k, v) ∈ d) : dget d k = some v := by
  induction d with
  | nil => simp at h
  | cons kv d ih =>
    obtain ⟨k', v'⟩ := kv
    simp only [dkeys, List.map_cons, List.nodup_cons] at hn
    rcases List.mem_cons.1 h with e | h
    · cases e; simp [dget]
    · have : k' ≠ k := by
        rintro rfl
        exact hn.1 (List.mem_map.2 ⟨_, h, rfl⟩)
      rw [dget, if_neg this, ih hn.2 h]

theorem mem_dget {d : Dict} {k v} (h : dget d k = some v) : (k, v) ∈ d := by
  induction d with
  | nil => simp at h
  | cons kv d ih =>
    obtain ⟨k', v'⟩ := kv
    rw [dget] at h
    split at h
    · rename_i e; cases e; cases h; simp
    · exact List.mem_cons_of_mem _ (ih h)

theorem plain_dget {d : Dict} (hn : (dkeys d).Nodup) {k v} (h : (k, v) ∈ d) (hp : isPrivate k = false) :
    dget (plainEntries d) k = some (plainValue v) := by
  induction d with
  | nil => simp at h
  | cons kv d ih =>
    obtain ⟨k', v'⟩ := kv
    simp only [dkeys, List.map_cons, List.nodup_cons] at hn
    rcases List.mem_cons.1 h with e | h
    · cases e; simp [plainEntries, hp, dget]
    · have : k' ≠ k := by
        rintro rfl
        exact hn.1 (List.mem_map.2 ⟨_, h, rfl⟩)
      rw [plainEntries]
      split
      · exact ih hn.2 h
      · rw [dget, if_neg this, ih hn.2 h]

theorem plain_keys {d : Dict} {k} (h : k ∈ dkeys (plainEntries d)) : k ∈ dkeys d := by
  induction d with
  | nil => simpa [plainEntries] using h
  | cons kv d ih =>
    obtain ⟨k', v'⟩ := kv
    rw [plainEntries] at h
    split at h
    · exact List.mem_cons_of_mem _ (ih h)
    · rcases List.mem_cons.1 h with rfl | h
      · simp [dkeys]
      · exact List.mem_cons_of_mem _ (ih h)

theorem plain_dict {d : Dict} (h : "_name" ∉ dkeys d) : plainValue (.dict d) = .dict (plainEntries d) := by
  rw [plainValue, (dget_eq_none_iff d "_name").2 h]

theorem conv_dict {d : Dict} (hn : (dkeys d).Nodup) (h : "_name" ∉ dkeys d) (hc : ConvertibleEntries d) : Convertible (.dict d) := by
  rw [Convertible]
  refine ⟨hn, ?_, hc⟩
  intro name hd
  rw [(dget_eq_none_iff d "_name").2 h] at hd
  cases hd

theorem plain_one {k v} (hk : isPrivate k = false) (d : Dict) : plainEntries ((k, v) :: d) = (k, plainValue v) :: plainEntries d := by
  simp [plainEntries, hk]

theorem noRaw_list {l : List Val} : NoRawList l ↔ ∀ v ∈ l, NoRaw v := by
  induction l with
  | nil => simp [NoRawList]
  | cons v l ih => simp [NoRawList, ih]

theorem conv_listv {l : List Val} : ConvertibleList l ↔ ∀ v ∈ l, Convertible v := by
  induction l with
  | nil => simp [ConvertibleList]
  | cons v l ih => simp [ConvertibleList, ih]

theorem plainList_eq (l : List Val) : plainList l = l.map plainValue := by
  induction l with
  | nil => simp [plainList]
  | cons v l ih => simp [plainList, ih]

/-! ### Leaves -/

/-- A value that is its own plain form. -/
def Leaf (v : Val) : Prop := plainValue v = v ∧ Convertible v

theorem Leaf.int (n : Int) : Leaf (.int n) := ⟨by simp [plainValue], by simp [Convertible]⟩
theorem Leaf.bool (b : Bool) : Leaf (.bool b) := ⟨by simp [plainValue], by simp [Convertible]⟩
theorem Leaf.flt (q : Rat) : Leaf (.flt q) := ⟨by simp [plainValue], by simp [Convertible]⟩
theorem Leaf.inf : Leaf .inf := ⟨by simp [plainValue], by simp [Convertible]⟩
theorem Leaf.str (s : String) : Leaf (.str s) := ⟨by simp [plainValue], by simp [Convertible]⟩
theorem Leaf.none : Leaf .none := ⟨by simp [plainValue], by simp [Convertible]⟩
theorem Leaf.fbits (w n) : Leaf (.fbits w n) := ⟨by simp [plainValue], by simp [Convertible]⟩

/-- The format reports leaves only. -/
theorem flat_leaf {α} {G : Fmt α} (h : ∀ u b v, G u b v → Leaf v) : Flat G := by
  intro b v hG _
  obtain ⟨h1, h2⟩ := h v b v hG
  exact ⟨h2, by rwa [h1]⟩

theorem flat_uintWhere (n P) : Flat (uintWhere n P) := flat_leaf (by rintro u b v ⟨k, -, -, -, -, rfl⟩; exact .int _)
theorem flat_uint (n) : Flat (uint n) := flat_uintWhere _ _
theorem flat_sint (n) : Flat (sint n) := flat_leaf (by rintro u b v ⟨k, -, -, -, rfl⟩; exact .int _)
theorem flat_uintBE (n) : Flat (uintBE n) := flat_leaf (by rintro u b v ⟨k, -, -, -, rfl⟩; exact .int _)
theorem flat_bitsU (n) : Flat (bitsU n) := flat_leaf (by rintro u b v ⟨k, -, -, -, rfl⟩; exact .int _)
theorem flat_bitsS (n) : Flat (bitsS n) := flat_leaf (by rintro u b v ⟨k, -, -, -, rfl⟩; exact .int _)
theorem flat_bit : Flat bit := flat_leaf (by rintro u b v ⟨-, rfl⟩; exact .bool _)
theorem flat_byteFlag : Flat byteFlag := flat_leaf (by rintro u b v ⟨-, rfl⟩; exact .bool _)
theorem flat_bytes (n) : Flat (F.bytes n) := by rintro b v ⟨-, rfl, -⟩ h; simp [NoRaw] at h
theorem flat_rest : Flat F.rest := by rintro b v ⟨rfl, -⟩ h; simp [NoRaw] at h
theorem flat_log2 [Platform] (m i) : Flat (log2 m i) := flat_leaf (by
  rintro u b v (⟨-, -, -, rfl⟩ | ⟨-, -, rfl⟩ | ⟨q, l, n, -, -, -, -, -, -, rfl⟩)
  · exact .inf
  · exact .int _
  · exact .int _)
theorem flat_transitionTime (m) : Flat (F.transitionTime m) := flat_leaf (by
  rintro u b v ⟨q, r, k, -, -, -, -, -, -, -, rfl⟩
  unfold ttValue
  split
  · exact .flt _
  · exact .int _)
theorem flat_delay : Flat F.delay := flat_leaf (by rintro u b v ⟨q, n, -, -, -, -, rfl⟩; exact .flt _)
theorem flat_count (G unk res w) : Flat (count G unk res w) := flat_leaf (by
  rintro u b v ⟨n, q, w, -, -, -, rfl⟩
  split
  · exact .flt _
  · split
    · exact .int _
    · exact .flt _)
theorem flat_fixedString (n) : Flat (fixedString n) := flat_leaf (by rintro u b v ⟨s, -, -, -, rfl⟩; exact .str _)
theorem flat_timeExp [Platform] : Flat timeExp := flat_leaf (by
  rintro u b v ⟨n, -, -, (⟨-, rfl⟩ | ⟨-, x, -, rfl⟩), -⟩
  · exact .int _
  · exact .flt _)
theorem flat_text : Flat text := flat_leaf (by rintro u b v ⟨s, -, -, rfl⟩; exact .str _)
theorem flat_paddedText (n) : Flat (paddedText n) := flat_leaf (by rintro u b v ⟨s, -, -, -, rfl⟩; exact .str _)
theorem flat_pascalText : Flat pascalText := flat_leaf (by rintro u b v ⟨s, -, -, -, rfl⟩; exact .str _)
theorem flat_mac : Flat mac := flat_leaf (by rintro u b v ⟨s, -, -, -, rfl⟩; exact .str _)
theorem flat_ip : Flat ip := by rintro b v ⟨s, rfl, -, -, h⟩; cases h
theorem flat_float [Platform] (w) : Flat (F.float w) := flat_leaf (by rintro u b v ⟨-, rfl⟩; exact .fbits _ _)

theorem flat_time : Flat F.time := by
  rintro b v ⟨t, ⟨d, ud, uu, ut, ua, rfl, hd, -, -, -, ht, hD, -⟩, h⟩ hn
  rcases h with ⟨f, -, ⟨-, -, hv⟩, -⟩ | ⟨-, -, -, -, -, hv⟩
  · rw [hv] at hn; simp [NoRaw, NoRawEntries] at hn
  · injection hv with hv
    subst hv
    have : ut = .none := by simpa [dget] using ht.symm
    subst this
    rcases hD with h | ⟨n, h, -⟩
    · cases h
    · cases h

theorem flat_timestamp : Flat F.timestamp := by
  rintro b v ⟨m, off, td, f, -, -, -, -, ⟨-, -, -, rfl⟩, -⟩ hn
  simp [NoRaw, NoRawEntries] at hn

/-- Enumerations: the number is accepted for the member. -/
theorem flat_enumOf {α} (G : Fmt α) (E : EnumDef) : Flat (enumOf G E) := by
  rintro b v ⟨k, w, hE, hG, rfl⟩ -
  refine ⟨by simp [Convertible], k, w, ?_, hG, rfl⟩
  simp only [plainValue]
  rcases hE with ⟨s, h, -⟩ | ⟨h, hm⟩
  · cases h
  · exact .inr ⟨rfl, hm⟩

theorem flat_date : Flat F.date := by
  rintro b v ⟨n, hD, hn, hl, hb, rfl⟩ -
  refine ⟨by simp [Convertible], n, ?_, hn, hl, hb, rfl⟩
  refine .inr (.inr (.inr ?_))
  obtain ⟨y, m, d, hc, a1, a2, a3, a4, a5, a6⟩ := civil_date n
  obtain ⟨a6, a7⟩ := a6 (by omega) hn
  refine ⟨[("year", .int y), ("month", .int m), ("day", .int d)], .int y, .int m, .int d, by simp only [plainValue, dayParts, hc], by simp [dget],
    by simp [dget], by simp [dget], ?_⟩
  simp [Property.pyDate, asInt, a1, a2, a3, a4, a5, a6, a7]

theorem flat_bitset (n) : Flat (bitset n) := by
  rintro b v ⟨hl, hc, hv⟩ -
  subst hv
  refine ⟨by simp [Convertible], hl, ?_, rfl⟩
  intro i hi
  obtain ⟨l, hl, hm⟩ := hc i hi
  rw [members] at hl
  injection hl with hl
  subst hl
  refine ⟨_, by rw [plainValue, members], ?_⟩
  rw [hm]
  generalize (List.filterMap _ _ : List Int) = l
  simp [List.filterMap_map, Function.comp_def, hashInt, asInt]

theorem flat_retransmit (s) : Flat (retransmit s) := by
  rintro b v ⟨d, uc, ui, c, st, rfl, h1, h2, h3, h4, h5, h6, rfl, hv⟩ -
  injection hv with hv
  subst hv
  have p1 : isPrivate "count" = false := by decide +kernel
  have p2 : isPrivate "interval" = false := by decide +kernel
  have g1 : snakecase (camelcase "count") = "count" := by decide +kernel
  have g2 : snakecase (camelcase "interval") = "interval" := by decide +kernel
  refine ⟨conv_dict (by simp [dkeys]) (by simp [dkeys]) (by simp [ConvertibleEntries, Convertible, g1, g2]), ?_⟩
  rw [plain_dict (by simp [dkeys])]
  refine ⟨_, uc, ui, c, st, rfl, ?_, ?_, h3, h4, h5, h6, rfl, rfl⟩
  · rw [← h1]; simp [plainEntries, p1, p2, dget, plainValue]
  · rw [← h2]; simp [plainEntries, p1, p2, dget, plainValue]

theorem flat_keyList : Flat keyList := by
  rintro b v ⟨us, ks, ss, hu, h1, h2, h3, h4, rfl, rfl⟩ -
  have hp : plainValue (.list (ss.map fun (k : Nat) => Val.int k)) = .list (ss.map fun (k : Nat) => Val.int k) := by
    rw [plainValue, plainList_eq, List.map_map]
    congr 1
  refine ⟨?_, ?_⟩
  · rw [Convertible, conv_listv]
    intro v hv
    obtain ⟨k, -, rfl⟩ := List.mem_map.1 hv
    simp [Convertible]
  · rw [hp]
    exact ⟨us, ks, ss, hu, h1, h2, h3, h4, rfl, rfl⟩

/-! ### Records -/

section
variable {α : Type}

theorem flatI_fld {k : String} {G : Fmt α} (hk : GoodKey k) (hG : Flat G) : FlatI (fld k G) where
  keys := by rintro du b dv ⟨u, v, -, -, rfl⟩; rfl
  flat := by
    rintro du b dv ⟨u, v, h1, h2, rfl⟩ hl hn
    have := hl k v (by simp) hk.pub
    rw [this] at h1; injection h1 with h1; subst h1
    simp only [NoRawEntries, and_true] at hn
    obtain ⟨c1, c2⟩ := hG b v h2 hn
    refine ⟨by simp [ConvertibleEntries, hk.conv, c1], ?_⟩
    intro d' hd'
    exact ⟨_, v, hd' k v (by simp) hk.pub, c2, rfl⟩

theorem plain_not_none {v : Val} (h : v ≠ .none) : plainValue v ≠ .none := by
  cases v <;> simp_all [plainValue, dateParts, dayParts]
  split <;> (try split) <;> simp

theorem flatI_fldDefault {k : String} {dflt : Val} {G : Fmt α} (hk : GoodKey k) (hG : Flat G)
    (h0 : ∀ u b v, G u b v → v ≠ .none) : FlatI (fldDefault k dflt G) where
  keys := by rintro du b dv ⟨u, v, -, -, rfl⟩; rfl
  flat := by
    rintro du b dv ⟨u, v, h1, h2, rfl⟩ hl hn
    have := hl k v (by simp) hk.pub
    have hv := h0 _ _ _ h2
    rcases h1 with ⟨h1, -⟩ | ⟨h1 | h1, -⟩
    · rw [this] at h1; injection h1 with h1; subst h1
      simp only [NoRawEntries, and_true] at hn
      obtain ⟨c1, c2⟩ := hG b v h2 hn
      refine ⟨by simp [ConvertibleEntries, hk.conv, c1], ?_⟩
      intro d' hd'
      exact ⟨_, v, .inl ⟨hd' k v (by simp) hk.pub, plain_not_none hv⟩, c2, rfl⟩
    · rw [this] at h1; cases h1
    · rw [this] at h1; injection h1 with h1; exact absurd h1 hv

theorem flatI_zeros (z : α) (n) : FlatI (zeros z n) where
  keys := by rintro du b dv ⟨-, rfl⟩; rfl
  flat := by
    rintro du b dv ⟨rfl, rfl⟩ - -
    exact ⟨by simp [ConvertibleEntries], fun d' _ => ⟨rfl, rfl⟩⟩

theorem flatI_reserved {k} (n) (hk : isPrivate k = true) : FlatI (reserved k n) where
  keys := by rintro du b dv ⟨-, rfl⟩; rfl
  flat := by
    rintro du b dv ⟨rfl, rfl⟩ - -
    exact ⟨by simp [ConvertibleEntries, hk], fun d' _ => ⟨rfl, rfl⟩⟩

theorem flatIs_keys {rs : List (RI α)} (h : FlatIs rs) : ∀ {du b dv}, seqRel rs du b dv → dkeys dv = rs.flatMap RI.keys := by
  induction h with
  | nil => rintro du b dv ⟨-, rfl⟩; rfl
  | cons hi _ ih =>
    rintro du b dv ⟨b1, b2, d1, d2, rfl, rfl, hr, hs⟩
    simp [dkeys_append, hi.keys hr, ih hs]

theorem flatIs_flat {rs : List (RI α)} (h : FlatIs rs) : ∀ {du b dv}, seqRel rs du b dv →
    (∀ k v, (k, v) ∈ dv → isPrivate k = false → dget du k = some v) → NoRawEntries dv →
    ConvertibleEntries dv ∧ ∀ d', (∀ k v, (k, v) ∈ dv → isPrivate k = false → dget d' k = some (plainValue v)) → seqRel rs d' b dv := by
  induction h with
  | nil => rintro du b dv ⟨rfl, rfl⟩ _ _; exact ⟨by simp [ConvertibleEntries], fun _ _ => ⟨rfl, rfl⟩⟩
  | cons hi _ ih =>
    rintro du b dv ⟨b1, b2, d1, d2, rfl, rfl, hr, hs⟩ hl hn
    rw [noRaw_append] at hn
    obtain ⟨c1, r1⟩ := hi.flat hr (fun k v hm => hl k v (by simp [hm])) hn.1
    obtain ⟨c2, r2⟩ := ih hs (fun k v hm => hl k v (by simp [hm])) hn.2
    refine ⟨conv_append.2 ⟨c1, c2⟩, fun d' hd' => ?_⟩
    exact ⟨b1, b2, d1, d2, rfl, rfl, r1 d' (fun k v hm => hd' k v (by simp [hm])), r2 d' (fun k v hm => hd' k v (by simp [hm]))⟩

theorem flatI_embed {rs : List (RI α)} (h : FlatIs rs) : FlatI (embed rs) where
  keys := fun hr => flatIs_keys h hr
  flat := fun hr hl hn => flatIs_flat h hr hl hn

/-- Entries with distinct keys that form a record. -/
theorem seq_flat {rs : List (RI α)} (h : FlatIs rs) (hk : (rs.flatMap RI.keys).Nodup) {b dv} (hs : seqRel rs dv b dv) (hn : NoRawEntries dv) :
    (dkeys dv).Nodup ∧ ConvertibleEntries dv ∧ seqRel rs (plainEntries dv) b dv := by
  have hkeys := flatIs_keys h hs
  have hnd : (dkeys dv).Nodup := by rw [hkeys]; exact hk
  obtain ⟨c, r⟩ := flatIs_flat h hs (fun k v hm _ => dget_mem hnd hm) hn
  exact ⟨hnd, c, r _ (fun k v hm hp => plain_dget hnd hm hp)⟩

theorem flat_record {rs : List (RI α)} (h : FlatIs rs) (hk : (rs.flatMap RI.keys).Nodup) (h0 : "_name" ∉ rs.flatMap RI.keys) : Flat (record rs) := by
  rintro b v ⟨du, dv, hu, hs, rfl⟩ hn
  injection hu with hu; subst hu
  rw [NoRaw] at hn
  obtain ⟨hnd, c, r⟩ := seq_flat h hk hs hn
  have h0' : "_name" ∉ dkeys dv := by rw [flatIs_keys h hs]; exact h0
  exact ⟨conv_dict hnd h0' c, by rw [plain_dict h0']; exact ⟨_, dv, rfl, r, rfl⟩⟩

end

theorem flat_packed {n} {G : Fmt Bool} (h : Flat G) : Flat (packed n G) := by
  rintro b v ⟨hl, hG⟩ hn
  obtain ⟨c, r⟩ := h _ _ hG hn
  exact ⟨c, hl, r⟩

theorem flat_packedLE {n} {G : Fmt Bool} (h : Flat G) : Flat (packedLE n G) := by
  rintro b v ⟨hl, hG⟩ hn
  obtain ⟨c, r⟩ := h _ _ hG hn
  exact ⟨c, hl, r⟩

theorem flatI_bitGroup {name n le} {rs : List (RI Bool)} (hp : isPrivate name = true) (h : FlatIs rs) : FlatI (bitGroup name n le rs) where
  keys := by
    rintro du b dv ⟨d, -, hs, rfl⟩
    have := flatIs_keys h hs
    simp only [dkeys] at this
    simp [dkeys, F.bitGroup, this]
  flat := by
    rintro du b dv ⟨d, hl, hs, rfl⟩ hlook hn
    rw [NoRawEntries] at hn
    obtain ⟨c, r⟩ := flatIs_flat h hs (fun k v hm => hlook k v (by simp [hm])) hn.2
    refine ⟨by simp [ConvertibleEntries, hp, c], fun d' hd' => ?_⟩
    exact ⟨d, hl, r d' (fun k v hm => hd' k v (by simp [hm])), rfl⟩

theorem flatI_sizedText {kl ks} (h1 : GoodKey kl) (h2 : GoodKey ks) : FlatI (sizedText kl ks) where
  keys := by rintro du b dv ⟨ul, s, n, -, -, -, -, -, -, rfl⟩; rfl
  flat := by
    rintro du b dv ⟨ul, s, n, a1, a2, a3, a4, a5, rfl, rfl⟩ hl hn
    have e1 := hl kl (.int n) (by simp) h1.pub
    have e2 := hl ks (.str (rstripNul s)) (by simp) h2.pub
    rw [a1] at e1; rw [a2] at e2
    cases e1
    refine ⟨by simp [ConvertibleEntries, h1.conv, h2.conv, Convertible], fun d' hd' => ?_⟩
    have f1 := hd' kl _ (List.mem_cons_self ..) h1.pub
    have f2 := hd' ks _ (List.mem_cons_of_mem _ (List.mem_cons_self ..)) h2.pub
    simp only [plainValue] at f1 f2
    simp only [Option.some.injEq, Val.str.injEq] at e2
    exact ⟨_, s, n, f1, by rw [f2, ← e2], rfl, a4, a5, rfl, rfl⟩

theorem flatI_deltaPair {k₁ k₂} (h1 : GoodKey k₁) (h2 : GoodKey k₂) : FlatI (deltaPair k₁ k₂) where
  keys := by rintro du b dv ⟨u₁, u₂, n₁, n₂, -, -, -, -, -, -, -, rfl⟩; rfl
  flat := by
    rintro du b dv ⟨u₁, u₂, n₁, n₂, a1, a2, a3, a4, a5, a6, rfl, rfl⟩ hl hn
    have hp : isPrivate "_" = true := by decide +kernel
    refine ⟨by simp [ConvertibleEntries, hp, h1.conv, h2.conv, Convertible], fun d' hd' => ?_⟩
    have f1 := hd' k₁ (.int n₁) (by simp) h1.pub
    have f2 := hd' k₂ (.int n₂) (by simp) h2.pub
    simp only [plainValue] at f1 f2
    exact ⟨_, _, n₁, n₂, f1, f2, rfl, rfl, a5, a6, rfl, rfl⟩

/-! ### Lists -/

section
variable {α : Type}

theorem many_flat {G : Fmt α} (hG : Flat G) : ∀ (vs : List Val) (b : List α), manyRel G vs b vs → NoRawList vs →
    ConvertibleList vs ∧ manyRel G (plainList vs) b vs := by
  intro vs
  induction vs with
  | nil => rintro b ⟨rfl, -⟩ _; exact ⟨by simp [ConvertibleList], by simp [plainList, manyRel]⟩
  | cons v vs ih =>
    rintro b ⟨b1, b2, v', vs', rfl, e, h1, h2⟩ hn
    cases e
    rw [NoRawList] at hn
    obtain ⟨c1, r1⟩ := hG _ _ h1 hn.1
    obtain ⟨c2, r2⟩ := ih _ h2 hn.2
    exact ⟨by rw [ConvertibleList]; exact ⟨c1, c2⟩, by rw [plainList]; exact ⟨b1, b2, v, vs, rfl, rfl, r1, r2⟩⟩

theorem flat_listOf {G : Fmt α} (hG : Flat G) : Flat (listOf G) := by
  rintro b v ⟨us, vs, hu, hm, rfl⟩ hn
  injection hu with hu; subst hu
  rw [NoRaw] at hn
  obtain ⟨c, r⟩ := many_flat hG _ _ hm hn
  exact ⟨by rw [Convertible]; exact c, _, vs, by rw [plainValue]; rfl, r, rfl⟩

theorem flat_listN {n} {G : Fmt α} (hG : Flat G) : Flat (listN n G) := by
  rintro b v ⟨us, vs, hu, hl, hm, rfl⟩ hn
  injection hu with hu; subst hu
  rw [NoRaw] at hn
  obtain ⟨c, r⟩ := many_flat hG _ _ hm hn
  exact ⟨by rw [Convertible]; exact c, _, vs, by rw [plainValue]; rfl, by rw [plainList_eq, List.length_map, hl], r, rfl⟩

end

theorem flat_withLength {n} {G : Fmt UInt8} (h : Flat G) : Flat (withLength n G) := by
  rintro b v ⟨p, hG, hl, rfl⟩ hn
  obtain ⟨c, r⟩ := h _ _ hG hn
  exact ⟨c, p, r, hl, rfl⟩

theorem flat_withCount {n} {G : Fmt UInt8} (hG : Flat G) : Flat (withCount n G) := by
  rintro b v ⟨us, vs, p, hu, hl, hm, rfl, rfl⟩ hn
  injection hu with hu; subst hu
  rw [NoRaw] at hn
  obtain ⟨c, r⟩ := many_flat hG _ _ hm hn
  refine ⟨by rw [Convertible]; exact c, _, vs, p, by rw [plainValue]; rfl, ?_, r, ?_, rfl⟩
  · rw [plainList_eq, List.length_map]; exact hl
  · rw [plainList_eq, List.length_map]

theorem flat_setOf (G : Fmt UInt8) : Flat (setOf G) := by
  rintro b v ⟨us, vs, ks, s, hu, h1, h2, h3, h4, rfl⟩ -
  exact ⟨by simp [Convertible], us, vs, ks, s, by rw [plainValue]; exact hu, h1, h2, h3, h4, rfl⟩

theorem flatI_counted {n kn ks} {G : Fmt UInt8} (h1 : GoodKey kn) (h2 : GoodKey ks) (hG : Flat G) : FlatI (counted n kn ks G) where
  keys := by rintro du b dv ⟨uv, us, vs, p, -, -, -, -, -, rfl⟩; rfl
  flat := by
    rintro du b dv ⟨uv, us, vs, p, a1, a2, a3, a4, rfl, rfl⟩ hl hn
    have e := hl ks (.list vs) (by simp) h2.pub
    rw [a1] at e; injection e with e; subst e; injection a2 with a2; subst a2
    simp only [NoRawEntries, NoRaw, and_true, true_and] at hn
    obtain ⟨c, r⟩ := many_flat hG _ _ a4 hn
    refine ⟨by simp [ConvertibleEntries, h1.conv, h2.conv, Convertible, c], fun d' hd' => ?_⟩
    have f := hd' ks _ (List.mem_cons_of_mem _ (List.mem_cons_self ..)) h2.pub
    rw [plainValue] at f
    exact ⟨_, _, vs, p, f, rfl, by rw [plainList_eq, List.length_map]; exact a3, r, by rw [plainList_eq, List.length_map],
      by rw [plainList_eq, List.length_map]⟩

theorem flatI_counted2 {kn kn' ks ks'} {G G' : Fmt UInt8} (h1 : GoodKey kn) (h2 : GoodKey kn') (h3 : GoodKey ks)
    (h4 : GoodKey ks') (hG : Flat G) (hG' : Flat G') : FlatI (counted2 kn kn' ks ks' G G') where
  keys := by rintro du b dv ⟨uv, us, vs, p, uv', us', vs', p', -, -, -, -, -, -, -, -, -, rfl⟩; rfl
  flat := by
    rintro du b dv ⟨uv, us, vs, p, uv', us', vs', p', a1, a2, a3, a4, b1, b2, b3, b4, rfl, rfl⟩ hl hn
    have e := hl ks (.list vs) (by simp) h3.pub
    have e' := hl ks' (.list vs') (by simp) h4.pub
    rw [a1] at e; injection e with e; subst e; injection a2 with a2; subst a2
    rw [b1] at e'; injection e' with e'; subst e'; injection b2 with b2; subst b2
    simp only [NoRawEntries, NoRaw, and_true, true_and] at hn
    obtain ⟨c, r⟩ := many_flat hG _ _ a4 hn.1
    obtain ⟨c', r'⟩ := many_flat hG' _ _ b4 hn.2
    refine ⟨by simp [ConvertibleEntries, h1.conv, h2.conv, h3.conv, h4.conv, Convertible, c, c'], fun d' hd' => ?_⟩
    have f := hd' ks (.list vs) (by simp) h3.pub
    have f' := hd' ks' (.list vs') (by simp) h4.pub
    rw [plainValue] at f f'
    exact ⟨_, _, vs, p, _, _, vs', p', f, rfl, by rw [plainList_eq, List.length_map]; exact a3, r, f', rfl,
      by rw [plainList_eq, List.length_map]; exact b3, r', by simp [plainList_eq], by simp [plainList_eq]⟩

end BM
