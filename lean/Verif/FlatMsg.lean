import Verif.Flat
import Verif.MeetsSel
/-!
# Formats whose values survive the conversion of names: alternatives, tags, properties
-/
namespace BM
open F Case Props

/-! ### Alternatives -/

theorem Unencodable.imp {α} {G : Fmt α} {u u' : Val} (h : Unencodable G u) (hi : ∀ b v, G u' b v → G u b v) : Unencodable G u' :=
  fun ⟨b, v, hG⟩ => h ⟨b, v, hi b v hG⟩

theorem flat_orElse {α} {G H : Fmt α} (hG : Flat G) (hH : Flat H)
    (hu : ∀ b v, H v b v → NoRaw v → Unencodable G v → Unencodable G (plainValue v)) : Flat (orElse G H) := by
  rintro b v (h | ⟨h1, h2⟩) hn
  · obtain ⟨c, r⟩ := hG _ _ h hn; exact ⟨c, .inl r⟩
  · obtain ⟨c, r⟩ := hH _ _ h2 hn; exact ⟨c, .inr ⟨hu _ _ h2 hn h1, r⟩⟩

theorem flat_propertyId (E : EnumDef) : Flat (propertyIdOf E) := by
  refine flat_orElse (flat_enumOf _ _) (flat_uint 2) ?_
  rintro b v ⟨k, -, -, -, -, rfl⟩ - h
  rwa [(Leaf.int _).1]

section
variable {α : Type}

/-- The shape of a name. -/
structure GoodName (n : String) : Prop where
  pub : isPrivate n = false
  conv : snakecase n = n
  ne : n ≠ ""

theorem GoodName.of {n} (h : (!isPrivate n && snakecase n == n && n != "") = true) : GoodName n := by
  simp only [Bool.and_eq_true, Bool.not_eq_true', beq_iff_eq, bne_iff_ne] at h
  exact ⟨h.1.1, h.1.2, h.2⟩

theorem dget_append_mem {d e : Dict} {k} {v} (hn : (dkeys d).Nodup) (h : (k, v) ∈ d) : dget (d ++ e) k = some v := by
  induction d with
  | nil => simp at h
  | cons kv d ih =>
    obtain ⟨k', v'⟩ := kv
    simp only [dkeys, List.map_cons, List.nodup_cons] at hn
    rcases List.mem_cons.1 h with e | h
    · cases e; simp [dget]
    · have : k' ≠ k := by rintro rfl; exact hn.1 (List.mem_map.2 ⟨_, h, rfl⟩)
      rw [List.cons_append, dget, if_neg this, ih hn.2 h]

theorem plainEntries_append (d e : List (String × Val)) : plainEntries (d ++ e) = plainEntries d ++ plainEntries e := by
  simp [plainEntries_eq]

theorem private_name : isPrivate "_name" = true := by decide +kernel

/-- What the value of a named record looks like. -/
theorem named_shape {n : String} {rs : List (RI α)} (h : FlatIs rs) (hk : ("_name" :: n :: rs.flatMap RI.keys).Nodup) (hn : GoodName n) {b v}
    (hv : named n (record rs) v b v) (hr : NoRaw v) :
    ∃ dv, v = .dict (dv ++ [("_name", .str n)]) ∧ dkeys dv = rs.flatMap RI.keys ∧ plainValue v = .dict [(n, .dict (plainEntries dv))] ∧
      Convertible v ∧ record rs (.dict (plainEntries dv)) b (.dict dv) := by
  obtain ⟨d, dv, rfl, hG, hd⟩ := hv
  injection hd with hd
  subst hd
  simp only [List.nodup_cons, List.mem_cons, not_or] at hk
  obtain ⟨⟨hk1, hk2⟩, hk3, hk4⟩ := hk
  obtain ⟨du, dv', hu, hs, hdv⟩ := hG
  injection hdv with hdv; subst hdv
  have hkeys := flatIs_keys h hs
  have hnd : (dkeys dv).Nodup := by rw [hkeys]; exact hk4
  have hnone : dget (dv ++ [("_name", .str n)]) n = none := by
    rw [dget_eq_none_iff, dkeys_append, List.mem_append, hkeys]
    rintro (hm | hm)
    · exact hk3 hm
    · simp only [dkeys, List.map_cons, List.map_nil, List.mem_singleton] at hm
      exact hk1 hm.symm
  rw [hnone] at hu
  injection hu with hu; subst hu
  rw [NoRaw, noRaw_append] at hr
  obtain ⟨c, r⟩ := flatIs_flat h hs (fun k v hm _ => dget_append_mem hnd hm) hr.1
  have hname : dget (dv ++ [("_name", .str n)]) "_name" = some (.str n) := by
    rw [dget_append_right]
    · simp [dget]
    · rw [hkeys]; exact hk2
  refine ⟨dv, rfl, hkeys, ?_, ?_, _, dv, rfl, r _ (fun k v hm hp => plain_dget hnd hm hp), rfl⟩
  · rw [plainValue, hname]
    simp only [if_neg hn.ne, plainEntries_append]
    simp [plainEntries, private_name]
  · rw [Convertible]
    refine ⟨?_, ?_, ?_⟩
    · show (dkeys (dv ++ [("_name", Val.str n)])).Nodup
      rw [dkeys_append, List.nodup_append]
      refine ⟨hnd, by simp [dkeys], ?_⟩
      intro a ha b' hb'
      simp only [dkeys, List.map_cons, List.map_nil, List.mem_singleton] at hb'
      rintro rfl
      rw [hb', hkeys] at ha
      exact hk2 ha
    · intro name h1 h2
      rw [hname] at h1
      cases h1
      exact ⟨hn.conv, hn.pub⟩
    · rw [conv_append]
      exact ⟨c, by simp [ConvertibleEntries, private_name]⟩

theorem flat_named {n : String} {rs : List (RI α)} (h : FlatIs rs) (hk : ("_name" :: n :: rs.flatMap RI.keys).Nodup) (hn : GoodName n) :
    Flat (named n (record rs)) := by
  intro b v hv hr
  obtain ⟨dv, rfl, -, hp, c, r⟩ := named_shape h hk hn hv hr
  exact ⟨c, by rw [hp]; exact ⟨_, dv, rfl, by simpa [dget] using r, rfl⟩⟩

/-- Objects with a single entry, under the name of another alternative. -/
theorem named_other {n₁ n₂ k : String} {rs : List (RI α)} (hne : n₂ ≠ n₁) (hneed : Needs k rs) (hk : k ≠ n₂) (x : Val) :
    Unencodable (named n₁ (record rs)) (.dict [(n₂, x)]) := by
  rintro ⟨b, v, d, dv, hd, hG, -⟩
  injection hd with hd; subst hd
  simp only [dget, if_neg hne, Option.getD_none] at hG
  obtain ⟨d, hd, hm⟩ := requires_record hneed hG
  injection hd with hd; subst hd
  simp only [dkeys, List.map_cons, List.map_nil, List.mem_singleton] at hm
  exact hk hm

theorem flat_namedSelect {n₁ n₂ k : String} {rs₁ rs₂ : List (RI α)} (h₁ : FlatIs rs₁) (h₂ : FlatIs rs₂)
    (k₁ : ("_name" :: n₁ :: rs₁.flatMap RI.keys).Nodup) (k₂ : ("_name" :: n₂ :: rs₂.flatMap RI.keys).Nodup) (g₁ : GoodName n₁) (g₂ : GoodName n₂)
    (hneed : Needs k rs₁) (hk : k ≠ n₂) (hne : n₂ ≠ n₁) : Flat (orElse (named n₁ (record rs₁)) (named n₂ (record rs₂))) := by
  refine flat_orElse (flat_named h₁ k₁ g₁) (flat_named h₂ k₂ g₂) ?_
  intro b v hv hr _
  obtain ⟨dv, -, -, hp, -, -⟩ := named_shape h₂ k₂ g₂ hv hr
  rw [hp]
  exact named_other hne hneed hk _

/-- A record that needs a key does not take the entries of a record without it. -/
theorem plain_lacks {k : String} {rs rs' : List (RI α)} (hneed : Needs k rs) (h' : FlatIs rs') (h0 : "_name" ∉ rs'.flatMap RI.keys)
    (hk : k ∉ rs'.flatMap RI.keys) {b v} (hv : record rs' v b v) : Unencodable (record rs) (plainValue v) := by
  obtain ⟨du, dv, hu, hs, rfl⟩ := hv
  injection hu with hu; subst hu
  have hkeys := flatIs_keys h' hs
  rw [plain_dict (by rw [hkeys]; exact h0)]
  rintro ⟨b', v', hG⟩
  obtain ⟨d, hd, hm⟩ := requires_record hneed hG
  injection hd with hd; subst hd
  exact hk (hkeys ▸ plain_keys hm)

end

theorem flat_longShort {k : String} {l s : List (RI UInt8)} (h₁ : FlatIs l) (h₂ : FlatIs s)
    (k₁ : ("_name" :: "optional" :: l.flatMap RI.keys).Nodup) (k₂ : ("_name" :: "minimal" :: s.flatMap RI.keys).Nodup) (hk : k ≠ "minimal") :
    Flat (longShort k l s) := by
  have g₁ : GoodName "optional" := .of (by decide +kernel)
  have g₂ : GoodName "minimal" := .of (by decide +kernel)
  rintro b v (h | ⟨-, h⟩) hr
  · obtain ⟨c, r⟩ := flat_named h₁ k₁ g₁ _ _ h hr
    exact ⟨c, .inl r⟩
  · obtain ⟨c, r⟩ := flat_named h₂ k₂ g₂ _ _ h hr
    obtain ⟨dv, -, -, hp, -, -⟩ := named_shape h₂ k₂ g₂ h hr
    refine ⟨c, .inr ⟨⟨_, hp, by simp [dget], ?_⟩, r⟩⟩
    rw [dget, if_neg (Ne.symm hk)]; rfl

/-! ### Dictionaries with known keys -/

/-- Entries with distinct public keys that survive. -/
structure GoodDict (d : Dict) : Prop where
  nodup : (dkeys d).Nodup
  keys : ∀ k ∈ dkeys d, GoodKey k

theorem GoodDict.noName {d} (h : GoodDict d) : "_name" ∉ dkeys d := by
  intro hm
  have := (h.keys _ hm).pub
  rw [private_name] at this
  cases this

theorem GoodDict.plain {d} (h : GoodDict d) : plainValue (.dict d) = .dict (plainEntries d) := plain_dict h.noName

theorem GoodDict.get {d} (h : GoodDict d) {k u} (hd : dget d k = some u) : dget (plainEntries d) k = some (plainValue u) := by
  have hm := mem_dget hd
  exact plain_dget h.nodup hm (h.keys k (List.mem_map.2 ⟨_, hm, rfl⟩)).pub

theorem GoodDict.get_none {d k} (hd : dget d k = none) : dget (plainEntries d) k = none := by
  rw [dget_eq_none_iff] at hd ⊢
  exact fun hm => hd (plain_keys hm)

theorem GoodDict.conv {d} (h : GoodDict d) (hc : ∀ k v, (k, v) ∈ d → Convertible v) : Convertible (.dict d) := by
  refine conv_dict h.nodup h.noName ?_
  obtain ⟨-, hk⟩ := h
  induction d with
  | nil => simp [ConvertibleEntries]
  | cons kv d ih =>
    obtain ⟨k, v⟩ := kv
    rw [ConvertibleEntries]
    exact ⟨fun _ => ⟨(hk k (by simp [dkeys])).conv, hc k v (by simp)⟩, ih (fun k v hm => hc k v (by simp [hm])) (fun k hm => hk k (by
      simp only [dkeys, List.map_cons, List.mem_cons]; exact .inr hm))⟩

theorem asInt_plain {u : Val} {k} (h : asInt u = some k) : asInt (plainValue u) = some k := by
  cases u <;> simp_all [asInt, plainValue]

theorem hashInt_plain {u : Val} {k} (h : hashInt u = some k) : hashInt (plainValue u) = some k := by
  cases u <;> simp_all [hashInt, asInt, plainValue]

/-! ### Tags -/

theorem flat_tagged {cls kt kp : String} {T : List Tagged} (gt : GoodKey kt) (hT : ∀ t ∈ T, GoodKey t.key ∧ t.key ≠ kt ∧ Flat t.fmt) :
    Flat (tagged cls kt kp T) := by
  rintro b v ⟨d, ut, uv, vv, p, t, ht, rfl, h1, h2, h3, h4, rfl, hv⟩ hn
  injection hv with hv
  obtain ⟨g, hne, hf⟩ := hT t ht
  have gd : GoodDict d := by
    rw [hv]
    exact ⟨by simp [dkeys, Ne.symm hne], by simp [dkeys]; exact ⟨gt, g⟩⟩
  have hg : dget d t.key = some vv := by rw [hv]; simp [dget, Ne.symm hne]
  have hu : uv = vv := by rw [hg] at h3; simpa using h3.symm
  subst hu
  rw [hv, NoRaw] at hn
  simp only [NoRawEntries, NoRaw, true_and, and_true] at hn
  obtain ⟨c, r⟩ := hf _ _ h4 hn
  refine ⟨?_, ?_⟩
  · refine gd.conv ?_
    rw [hv]
    simp only [List.mem_cons, List.not_mem_nil, or_false, Prod.mk.injEq]
    rintro k v (⟨rfl, rfl⟩ | ⟨rfl, rfl⟩)
    · simp [Convertible]
    · exact c
  · rw [gd.plain]
    exact ⟨_, _, _, uv, p, t, ht, rfl, gd.get h1, hashInt_plain h2, by rw [gd.get hg]; rfl, r, rfl, by rw [hv]⟩

theorem flat_variant {cls kt kp : String} {T : List (Nat × Fmt UInt8)} (gt : GoodKey kt) (gp : GoodKey kp) (hne : kt ≠ kp)
    (hT : ∀ t ∈ T, Flat t.2) : Flat (variant cls kt kp T) := by
  rintro b v ⟨d, ut, uv, vv, p, t, ht, hd, h1, h2, h3, h4, rfl, rfl⟩ hn
  injection hd with hd; subst hd
  have gd : GoodDict [(kt, Val.enum cls t.1), (kp, vv)] := ⟨by simp [dkeys, hne], by simp [dkeys]; exact ⟨gt, gp⟩⟩
  have hg : dget [(kt, Val.enum cls t.1), (kp, vv)] kp = some vv := by simp [dget, hne]
  have hu : uv = vv := by rw [hg] at h3; simpa using h3.symm
  subst hu
  rw [NoRaw] at hn
  simp only [NoRawEntries, NoRaw, true_and, and_true] at hn
  obtain ⟨c, r⟩ := hT t ht _ _ h4 hn
  refine ⟨?_, ?_⟩
  · refine gd.conv ?_
    simp only [List.mem_cons, List.not_mem_nil, or_false, Prod.mk.injEq]
    rintro k v (⟨rfl, rfl⟩ | ⟨rfl, rfl⟩)
    · simp [Convertible]
    · exact c
  · rw [gd.plain]
    exact ⟨_, _, _, uv, p, t, ht, rfl, gd.get h1, hashInt_plain h2, gd.get hg, r, rfl, rfl⟩

theorem forall_flat {T : List (Nat × Fmt UInt8)} (h : T.Forall fun t => Flat t.2) : ∀ t ∈ T, Flat t.2 := List.forall_iff_forall_mem.1 h

/-! ### Headers with an identifier -/

/-- The plain form of everything the format accepts is accepted. -/
def Like {α} (G : Fmt α) : Prop := ∀ u b v, G u b v → G (plainValue u) b v ∧ Convertible v

structure LikeI {α} (r : RI α) : Prop where
  keys : ∀ {du b dv}, r.rel du b dv → dkeys dv = r.keys
  good : ∀ k ∈ r.keys, GoodKey k
  like : ∀ {du b dv}, r.rel du b dv → (∀ k v, (k, v) ∈ dv → Convertible v) ∧ ∀ d', (∀ k u, dget du k = some u → dget d' k = some (plainValue u)) → r.rel d' b dv

inductive LikeIs {α} : List (RI α) → Prop
  | nil : LikeIs []
  | cons {r rs} : LikeI r → LikeIs rs → LikeIs (r :: rs)

theorem like_uint (n) : Like (uint n) := by
  rintro u b v ⟨k, h1, h2, h3, h4, rfl⟩
  exact ⟨⟨k, asInt_plain h1, h2, h3, h4, rfl⟩, by simp [Convertible]⟩

theorem enumMeans_plain {E : EnumDef} {u : Val} {k} (h : EnumMeans E u k) : EnumMeans E (plainValue u) k := by
  rcases h with ⟨s, rfl, h⟩ | ⟨h, hm⟩
  · exact .inl ⟨s, by simp [plainValue], h⟩
  · exact .inr ⟨hashInt_plain h, hm⟩

theorem like_enumOf {α} (G : Fmt α) (E : EnumDef) : Like (enumOf G E) := by
  rintro u b v ⟨k, w, hE, hG, rfl⟩
  exact ⟨⟨k, w, enumMeans_plain hE, hG, rfl⟩, by simp [Convertible]⟩

theorem like_propertyId (E : EnumDef) : Like (propertyIdOf E) := by
  rintro u b v (h | ⟨h1, h2⟩)
  · obtain ⟨a, c⟩ := like_enumOf _ _ _ _ _ h
    exact ⟨.inl a, c⟩
  · obtain ⟨a, c⟩ := like_uint _ _ _ _ h2
    refine ⟨.inr ⟨?_, a⟩, c⟩
    obtain ⟨k, hk, -⟩ := h2
    refine BM.Unencodable.imp h1 ?_
    rintro b v ⟨k', w, hE, hG, rfl⟩
    refine ⟨k', w, ?_, hG, rfl⟩
    rcases hE with ⟨s, hs, -⟩ | ⟨h, hm⟩
    · have := asInt_plain hk; rw [hs] at this; cases this
    · refine .inr ⟨?_, hm⟩
      have e := asInt_plain hk
      have e1 : hashInt u = some (k : Int) := by cases u <;> simp_all [hashInt, asInt]
      have e2 := hashInt_plain e1
      rw [h] at e2
      rw [e1, e2]

section
variable {α : Type}

theorem likeI_fld {k : String} {G : Fmt α} (hk : GoodKey k) (hG : Like G) : LikeI (fld k G) where
  keys := by rintro du b dv ⟨u, v, -, -, rfl⟩; rfl
  good := by intro k' h; simp only [fld, List.mem_singleton] at h; subst h; exact hk
  like := by
    rintro du b dv ⟨u, v, h1, h2, rfl⟩
    obtain ⟨a, c⟩ := hG _ _ _ h2
    refine ⟨?_, fun d' hd' => ⟨_, v, hd' k u h1, a, rfl⟩⟩
    simp only [List.mem_singleton, Prod.mk.injEq]
    rintro k' v' ⟨rfl, rfl⟩
    exact c

theorem likeIs_keys {rs : List (RI α)} (h : LikeIs rs) : ∀ {du b dv}, seqRel rs du b dv → dkeys dv = rs.flatMap RI.keys := by
  induction h with
  | nil => rintro du b dv ⟨-, rfl⟩; rfl
  | cons hi _ ih =>
    rintro du b dv ⟨b1, b2, d1, d2, rfl, rfl, hr, hs⟩
    simp [dkeys_append, hi.keys hr, ih hs]

theorem likeIs_good {rs : List (RI α)} (h : LikeIs rs) : ∀ k ∈ rs.flatMap RI.keys, GoodKey k := by
  induction h with
  | nil => simp
  | cons hi _ ih =>
    intro k hk
    simp only [List.flatMap_cons, List.mem_append] at hk
    exact hk.elim (hi.good k) (ih k)

theorem likeIs_like {rs : List (RI α)} (h : LikeIs rs) : ∀ {du b dv}, seqRel rs du b dv →
    (∀ k v, (k, v) ∈ dv → Convertible v) ∧ ∀ d', (∀ k u, dget du k = some u → dget d' k = some (plainValue u)) → seqRel rs d' b dv := by
  induction h with
  | nil => rintro du b dv ⟨rfl, rfl⟩; exact ⟨by simp, fun _ _ => ⟨rfl, rfl⟩⟩
  | cons hi _ ih =>
    rintro du b dv ⟨b1, b2, d1, d2, rfl, rfl, hr, hs⟩
    obtain ⟨c1, r1⟩ := hi.like hr
    obtain ⟨c2, r2⟩ := ih hs
    refine ⟨?_, fun d' hd' => ⟨b1, b2, d1, d2, rfl, rfl, r1 d' hd', r2 d' hd'⟩⟩
    intro k v hm
    exact (List.mem_append.1 hm).elim (c1 k v) (c2 k v)

theorem likeI_embed {rs : List (RI α)} (h : LikeIs rs) : LikeI (embed rs) where
  keys := fun hr => likeIs_keys h hr
  good := likeIs_good h
  like := fun hr => likeIs_like h hr

end

/-! ### Properties -/

theorem without_keys (k : String) (d : Dict) : ∀ k' ∈ dkeys (without k d), k' ∈ dkeys d ∧ k' ≠ k := by
  intro k' h
  obtain ⟨kv, hm, rfl⟩ := List.mem_map.1 h
  obtain ⟨h1, h2⟩ := List.mem_filter.1 hm
  exact ⟨List.mem_map.2 ⟨kv, h1, rfl⟩, by simpa using h2⟩

theorem without_nodup {k : String} {d : Dict} (h : (dkeys d).Nodup) : (dkeys (without k d)).Nodup :=
  List.Nodup.sublist (List.Sublist.map _ List.filter_sublist) h

/-- What is required of the properties. -/
structure GoodProps (P : List Spec.PropSpec) (ks : List String) : Prop where
  key : ∀ p ∈ P, GoodKey p.name
  ne : ∀ p ∈ P, p.name ∉ ks
  flat : ∀ p ∈ P, Flat p.fmt

theorem header_good {rs : List (RI UInt8)} (h : LikeIs rs) (hnd : (rs.flatMap RI.keys).Nodup) {k kn : String} (hk : GoodKey k) (hkn : GoodKey kn)
    (hne : kn ≠ k) (hno : kn ∉ rs.flatMap RI.keys) {d b dh} (hs : seqRel rs d b dh) (x y : Val) :
    GoodDict (without k dh ++ [(k, x), (kn, y)]) := by
  have hkeys := likeIs_keys h hs
  constructor
  · rw [dkeys_append, List.nodup_append]
    refine ⟨without_nodup (by rw [hkeys]; exact hnd), by simp [dkeys, Ne.symm hne], ?_⟩
    intro a ha b' hb'
    obtain ⟨h1, h2⟩ := without_keys _ _ _ ha
    simp only [dkeys, List.map_cons, List.map_nil, List.mem_cons, List.not_mem_nil, or_false] at hb'
    rintro rfl
    rcases hb' with hb' | hb'
    · exact h2 hb'
    · rw [hb', hkeys] at h1; exact hno h1
  · intro k' hm
    rw [dkeys_append, List.mem_append] at hm
    rcases hm with hm | hm
    · exact likeIs_good h _ (hkeys ▸ (without_keys _ _ _ hm).1)
    · simp only [dkeys, List.map_cons, List.map_nil, List.mem_cons, List.not_mem_nil, or_false] at hm
      rcases hm with rfl | rfl
      · exact hk
      · exact hkn

theorem tail_get {k kn : String} {x y : Val} {e : Dict} (hne : kn ≠ k) (hno : kn ∉ dkeys e) : dget (e ++ [(k, x), (kn, y)]) kn = some y := by
  rw [dget_append_right hno]
  simp [dget, Ne.symm hne]

theorem flat_propertyMsg {cls : String} {P : List Spec.PropSpec} {rs : List (RI UInt8)} (h : LikeIs rs) (hnd : (rs.flatMap RI.keys).Nodup)
    (hP : GoodProps P ("property_id" :: rs.flatMap RI.keys)) : Flat (propertyMsg cls P rs) := by
  rintro b v ⟨d, id, p, b₁, b₂, dh, vv, rfl, h1, hp, h2, hs, hf, rfl, hv⟩ hn
  injection hv with hv
  have hne := hP.ne p hp
  simp only [List.mem_cons, not_or] at hne
  have gi : GoodKey "property_id" := .of (by decide +kernel)
  have gd : GoodDict d := by rw [hv]; exact header_good h hnd gi (hP.key p hp) hne.1 hne.2 hs _ _
  have hkeys := likeIs_keys h hs
  have hg : dget d p.name = some vv := by
    rw [hv]
    exact tail_get hne.1 (fun hm => hne.2 (hkeys ▸ (without_keys _ _ _ hm).1))
  rw [hg] at hf
  have hr : NoRaw vv := by rw [NoRaw] at hn; exact noRaw_mem hn (mem_dget hg)
  obtain ⟨c, r⟩ := hP.flat p hp _ _ hf hr
  obtain ⟨ch, rh⟩ := likeIs_like h hs
  refine ⟨gd.conv ?_, ?_⟩
  · rw [hv]
    intro k v hm
    rcases List.mem_append.1 hm with hm | hm
    · exact ch k v (List.mem_filter.1 hm).1
    · simp only [List.mem_cons, List.not_mem_nil, or_false, Prod.mk.injEq] at hm
      rcases hm with ⟨rfl, rfl⟩ | ⟨rfl, rfl⟩
      · simp [Convertible]
      · exact c
  · rw [gd.plain]
    exact ⟨_, _, p, b₁, b₂, dh, vv, rfl, gd.get h1, hp, hashInt_plain h2, rh _ (fun k u hu => gd.get hu), by rw [gd.get hg]; exact r, rfl, by rw [hv]⟩

theorem plain_raw (b : List UInt8) : plainValue (rawValue b) = rawValue b := by
  rw [rawValue, plainValue, plainList_eq, List.map_map]
  congr 1
theorem conv_raw (b : List UInt8) : Convertible (rawValue b) := by
  rw [rawValue, Convertible, conv_listv]
  intro v hv
  obtain ⟨x, -, rfl⟩ := List.mem_map.1 hv
  simp [Convertible]

/-- The value of a setting in a dictionary that contains what is reported for it. -/
theorem setting_flat {P : List Spec.PropSpec} {ks : List String} (hP : GoodProps P (settingKey :: rawKey :: ks)) {d : Dict} {id : Val} {b dv}
    (gd : GoodDict d) (hn : NoRawEntries d) (hsub : ∀ k v, (k, v) ∈ dv → dget d k = some v) (h : setting P d id b dv) :
    (∀ k v, (k, v) ∈ dv → Convertible v) ∧ setting P (plainEntries d) (plainValue id) b dv := by
  rcases h with ⟨p, vv, hp, h1, h2, rfl⟩ | ⟨k, h1, h2, h3, rfl⟩
  · have hg := hsub p.name vv (by simp)
    have he : settingValue d p.name = vv := by rw [settingValue, hg]; rfl
    rw [he] at h2
    obtain ⟨c, r⟩ := hP.flat p hp _ _ h2 (noRaw_mem hn (mem_dget hg))
    refine ⟨?_, .inl ⟨p, vv, hp, hashInt_plain h1, ?_, rfl⟩⟩
    · simp only [List.mem_cons, List.not_mem_nil, or_false, Prod.mk.injEq]
      rintro k v (⟨rfl, rfl⟩ | ⟨rfl, rfl⟩)
      · simp [Convertible]
      · exact c
    · rw [settingValue, gd.get hg]; exact r
  · have hg := hsub rawKey (rawValue b) (by simp)
    have he : settingValue d rawKey = rawValue b := by rw [settingValue, hg]; rfl
    rw [he] at h3
    refine ⟨?_, .inr ⟨k, hashInt_plain h1, h2, ?_, rfl⟩⟩
    · simp only [List.mem_cons, List.not_mem_nil, or_false, Prod.mk.injEq]
      rintro k v (⟨rfl, rfl⟩ | ⟨rfl, rfl⟩)
      · simp [Convertible]
      · exact conv_raw b
    · rw [settingValue, gd.get hg, plain_raw]; exact h3

/-- The two entries reported for a setting. -/
theorem setting_shape {P : List Spec.PropSpec} {ks : List String} (hP : GoodProps P (settingKey :: rawKey :: ks)) (hr : rawKey ∉ ks) {d : Dict} {id : Val} {b dv}
    (h : setting P d id b dv) : ∃ x kn y, dv = [(settingKey, x), (kn, y)] ∧ GoodKey kn ∧ kn ≠ settingKey ∧ kn ∉ ks := by
  rcases h with ⟨p, vv, hp, h1, h2, rfl⟩ | ⟨k, h1, h2, h3, rfl⟩
  · have := hP.ne p hp
    simp only [List.mem_cons, not_or] at this
    exact ⟨_, _, _, rfl, hP.key p hp, this.1, this.2.2⟩
  · exact ⟨_, _, _, rfl, .of (by decide +kernel), by decide, hr⟩

theorem goodSetting : GoodKey settingKey := .of (by decide +kernel)

theorem flat_settingMsg {P : List Spec.PropSpec} {rs : List (RI UInt8)} (h : LikeIs rs) (hnd : (rs.flatMap RI.keys).Nodup)
    (hP : GoodProps P (settingKey :: rawKey :: rs.flatMap RI.keys)) (hr : rawKey ∉ rs.flatMap RI.keys) : Flat (settingMsg P rs) := by
  rintro b v ⟨d, id, b₁, b₂, dh, dv, rfl, h1, hs, h2, rfl, hv⟩ hn
  injection hv with hv
  have hkeys := likeIs_keys h hs
  obtain ⟨x, kn, y, hdv, gk, hne, hno⟩ := setting_shape hP hr h2
  have gd : GoodDict d := by rw [hv, hdv]; exact header_good h hnd goodSetting gk hne hno hs _ _
  rw [NoRaw] at hn
  obtain ⟨c, r⟩ := setting_flat hP gd hn (fun k v hm => dget_mem gd.nodup (by rw [hv]; exact List.mem_append_right _ hm)) h2
  obtain ⟨ch, rh⟩ := likeIs_like h hs
  refine ⟨gd.conv ?_, ?_⟩
  · rw [hv]
    intro k v hm
    rcases List.mem_append.1 hm with hm | hm
    · exact ch k v (List.mem_filter.1 hm).1
    · exact c k v hm
  · rw [gd.plain]
    exact ⟨_, _, b₁, b₂, dh, dv, rfl, gd.get h1, rh _ (fun k u hu => gd.get hu), r, rfl, by rw [hv]⟩

theorem flat_sensorData {P : List Spec.PropSpec} (hP : GoodProps P [settingKey, rawKey, "format", "length"]) : Flat (sensorData P) := by
  rintro b v ⟨d, id, uf, ul, n, l, b₁, b₂, dv, rfl, h1, h2, h3, h4, h5, h6, h7, h8, rfl, hv⟩ hn
  injection hv with hv
  obtain ⟨x, kn, y, hdv, gk, hne, hno⟩ := setting_shape hP (by decide) h7
  simp only [List.mem_cons, List.not_mem_nil, or_false, not_or] at hno
  have gf : GoodKey "format" := .of (by decide +kernel)
  have gl : GoodKey "length" := .of (by decide +kernel)
  have gd : GoodDict d := by
    rw [hv, hdv]
    constructor
    · simp only [dkeys, List.cons_append, List.nil_append, List.map_cons, List.map_nil]
      have : kn ∉ ["format", "length", settingKey] := by simp [hno.1, hno.2, hne]
      simp only [List.nodup_cons, List.mem_cons, List.not_mem_nil, or_false, not_or, List.nodup_nil, and_true, not_false_eq_true] at this ⊢
      exact ⟨⟨by decide, by decide, Ne.symm this.1⟩, ⟨by decide, Ne.symm this.2.1⟩, Ne.symm this.2.2⟩
    · simp only [dkeys, List.cons_append, List.nil_append, List.map_cons, List.map_nil, List.mem_cons, List.not_mem_nil, or_false]
      rintro k (rfl | rfl | rfl | rfl)
      · exact gf
      · exact gl
      · exact goodSetting
      · exact gk
  rw [NoRaw] at hn
  obtain ⟨c, r⟩ := setting_flat hP gd hn (fun k v hm => dget_mem gd.nodup (by rw [hv]; exact List.mem_append_right _ hm)) h7
  have hf : uf = .int (if truthy uf then 1 else 0) := by
    rw [hv] at h2; simpa [dget] using h2.symm
  have ht : truthy (plainValue uf) = truthy uf := by rw [hf]; simp [plainValue]
  refine ⟨gd.conv ?_, ?_⟩
  · rw [hv]
    intro k v hm
    rcases List.mem_append.1 hm with hm | hm
    · simp only [List.mem_cons, List.not_mem_nil, or_false, Prod.mk.injEq] at hm
      rcases hm with ⟨rfl, rfl⟩ | ⟨rfl, rfl⟩ <;> simp [Convertible]
    · exact c k v hm
  · rw [gd.plain]
    exact ⟨_, _, _, _, n, l, b₁, b₂, dv, rfl, gd.get h1, gd.get h2, gd.get h3, asInt_plain h4, asInt_plain h5, by rw [ht]; exact h6, r, h8, rfl,
      by rw [ht, hv]⟩

end BM
