import Verif.MeetsText
import Verif.Covers
/-!
# Address texts, sizes, sets and tags meet their formats
-/
namespace BM
open F Config

/-! ### Splitting and joining -/

theorem joinChars_cons (sep : Char) (p : List Char) {ps : List (List Char)} (h : ps ≠ []) :
    joinChars sep (p :: ps) = p ++ sep :: joinChars sep ps := by
  cases ps with
  | nil => exact absurd rfl h
  | cons q qs => rfl

theorem splitChar_ne (sep : Char) (cs : List Char) : splitChar sep cs ≠ [] := by
  cases cs with
  | nil => simp [splitChar]
  | cons c cs =>
    simp only [splitChar]
    split
    · simp
    · split <;> simp

theorem join_split (sep : Char) (cs : List Char) : joinChars sep (splitChar sep cs) = cs ∧ ∀ p ∈ splitChar sep cs, sep ∉ p := by
  induction cs with
  | nil => simp [splitChar, joinChars]
  | cons c cs ih =>
    simp only [splitChar]
    by_cases h : c = sep
    · subst h
      rw [if_pos rfl, joinChars_cons _ _ (splitChar_ne _ _), ih.1]
      refine ⟨rfl, ?_⟩
      intro p hp
      rcases List.mem_cons.1 hp with rfl | hp
      · simp
      · exact ih.2 p hp
    · rw [if_neg h]
      cases hs : splitChar sep cs with
      | nil => exact absurd hs (splitChar_ne _ _)
      | cons p ps =>
        rw [hs] at ih
        constructor
        · cases ps with
          | nil => simpa [joinChars] using ih.1
          | cons q qs =>
            have := ih.1
            rw [joinChars_cons _ _ (by simp)] at this ⊢
            simp [this]
        · intro q hq
          rcases List.mem_cons.1 hq with rfl | hq
          · have := ih.2 p (by simp)
            simp only [List.mem_cons, not_or]
            exact ⟨Ne.symm h, this⟩
          · exact ih.2 q (by simp [hq])

theorem splitChar_part (sep : Char) {p : List Char} (hp : sep ∉ p) (r : List Char) :
    splitChar sep (p ++ sep :: r) = p :: splitChar sep r := by
  induction p with
  | nil => simp [splitChar]
  | cons c p ih =>
    simp only [List.mem_cons, not_or] at hp
    simp only [List.cons_append, splitChar, if_neg (Ne.symm hp.1), ih hp.2]

theorem splitChar_one (sep : Char) {p : List Char} (hp : sep ∉ p) : splitChar sep p = [p] := by
  induction p with
  | nil => simp [splitChar]
  | cons c p ih =>
    simp only [List.mem_cons, not_or] at hp
    simp only [splitChar, if_neg (Ne.symm hp.1), ih hp.2]

theorem split_join (sep : Char) {parts : List (List Char)} (hp : ∀ p ∈ parts, sep ∉ p) (hn : parts ≠ []) :
    splitChar sep (joinChars sep parts) = parts := by
  induction parts with
  | nil => exact absurd rfl hn
  | cons p ps ih =>
    cases ps with
    | nil => exact splitChar_one sep (hp p (by simp))
    | cons q qs =>
      rw [joinChars_cons _ _ (by simp), splitChar_part sep (hp p (by simp)), ih (fun x hx => hp x (by simp [hx])) (by simp)]

theorem partsBytes_iff (base : Nat) : ∀ {ps : List (List Char)} {b : List UInt8},
    partsBytes base ps = .ok b ↔ ps.map (pyInt base) = b.map fun x => some (x.toNat : Int) := by
  intro ps
  induction ps with
  | nil => intro b; cases b <;> simp [partsBytes]
  | cons p ps ih =>
    intro b
    simp only [partsBytes]
    cases hp : pyInt base p with
    | none => cases b <;> simp [hp]
    | some n =>
      by_cases hn : 0 ≤ n ∧ n < 256
      · simp only [if_pos hn, bind_ok, List.map_cons, hp]
        constructor
        · rintro ⟨bs, h1, h2⟩
          simp only [Except.ok.injEq] at h2
          subst h2
          have : (UInt8.ofNat n.toNat).toNat = n.toNat := by simp; omega
          simp only [List.map_cons, this, List.cons.injEq, Option.some.injEq]
          exact ⟨by omega, ih.1 h1⟩
        · intro h
          cases b with
          | nil => simp at h
          | cons x xs =>
            simp only [List.map_cons, List.cons.injEq, Option.some.injEq] at h
            refine ⟨xs, ih.2 h.2, ?_⟩
            rw [h.1]; simp
      · simp only [if_neg hn, List.map_cons, hp]
        constructor
        · intro h; simp at h
        · intro h
          cases b with
          | nil => simp at h
          | cons x xs =>
            simp only [List.map_cons, List.cons.injEq, Option.some.injEq] at h
            have := UInt8.toNat_lt x
            omega

theorem partsBytes_nodiv (base ps) : partsBytes base ps ≠ .error .diverge := by
  induction ps with
  | nil => simp [partsBytes]
  | cons p ps ih =>
    simp only [partsBytes]
    split
    · simp
    · split
      · intro h
        simp only [bind_err] at h
        rcases h with h | ⟨_, _, h⟩
        · exact ih h
        · simp at h
      · simp

theorem separated_iff {sep : Char} {base : Nat} {s : String} {b : List UInt8} :
    F.Separated sep base s b ↔ partsBytes base (splitChar sep s.toList) = .ok b := by
  rw [partsBytes_iff]
  constructor
  · rintro ⟨parts, h1, h2, h3, h4⟩
    rw [h1, split_join sep h2 h3, h4]
  · intro h
    exact ⟨splitChar sep s.toList, (join_split sep _).1.symm, (join_split sep _).2, splitChar_ne _ _, h⟩

theorem hexByte_ok_all : (List.range 256).all (fun n => decide (pyInt 16 (hexByte (UInt8.ofNat n)) = some (n : Int)) && decide (':' ∉ hexByte (UInt8.ofNat n))) = true := by
  decide +kernel

theorem hexByte_ok (b : UInt8) : pyInt 16 (hexByte b) = some (b.toNat : Int) ∧ ':' ∉ hexByte b := by
  have h := List.all_eq_true.1 hexByte_ok_all b.toNat (by simp [UInt8.toNat_lt b])
  simpa using h

theorem separated_hex {b : List UInt8} (hb : b ≠ []) : F.Separated ':' 16 (String.ofList (joinChars ':' (b.map hexByte))) b := by
  refine ⟨b.map hexByte, by simp, ?_, by simpa using hb, ?_⟩
  · intro p hp
    obtain ⟨x, -, rfl⟩ := List.mem_map.1 hp
    exact (hexByte_ok x).2
  · rw [List.map_map]
    exact List.map_congr_left fun x _ => (hexByte_ok x).1

section
variable {M : Mode} {e : Bool}

theorem bytesN_build_ok {n : Nat} {b b' : List UInt8} {L ctx r} (h : (bytesN n).build L ctx (.bytes b) = .ok (b', r)) : b' = b ∧ b.length = n := by
  simp only [bytesN, asInt] at h
  split at h
  · simp only [Except.ok.injEq, Prod.mk.injEq] at h
    exact ⟨h.1.symm, by assumption⟩
  · simp at h

theorem bytesN_build {n : Nat} {b : List UInt8} {L ctx} (h : b.length = n) : (bytesN n).build L ctx (.bytes b) = .ok (b, .bytes b) := by
  simp [bytesN, asInt, h]

theorem lenEq_mac : LenEq F.mac 6 := by rintro u b v ⟨s, -, h, -⟩; exact h
theorem lenEq_ip : LenEq F.ip 4 := by rintro u b v ⟨s, -, h, -⟩; exact h

theorem meets_mac : Meets M e macAddress F.mac := by
  have hG : ∀ {b : List UInt8}, b.length = 6 → F.mac (.str (String.ofList (joinChars ':' (b.map hexByte)))) b
      (.str (String.ofList (joinChars ':' (b.map hexByte)))) :=
    fun {b} hb => ⟨_, rfl, hb, separated_hex (by rintro rfl; simp at hb), rfl⟩
  refine meets_fixed 6 (fun _ b => .ok (.str (String.ofList (joinChars ':' (b.map hexByte))))) ?_ (fun h => lenEq_mac h) ?_ ?_ ?_ ?_ ?_ ?_ ?_
  · intro L ctx s
    simp only [macAddress, adapter, bytesN]
    cases takeN 6 s <;> rfl
  · rintro u b v ⟨s, rfl, hl, hs, rfl⟩ L ctx _
    simp only [macAddress, adapter, separated_iff.1 hs, ok_bind, bytesN_build hl]
    exact ⟨_, rfl⟩
  · rintro u b v ⟨s, rfl, hl, hs, rfl⟩ L; rfl
  · intro L ctx u b r _ h
    cases u <;> simp only [macAddress, adapter, error_bind, bind_ok] at h <;> try (simp at h; done)
    obtain ⟨w, ⟨b1, h1, h2⟩, ⟨b2, r2⟩, h3, h4⟩ := h
    cases h2; cases h4
    obtain ⟨rfl, hl⟩ := bytesN_build_ok h3
    exact ⟨_, _, rfl, hl, separated_iff.2 h1, rfl⟩
  · rintro _ u b v ⟨s, rfl, hl, hs, rfl⟩; exact hG hl
  · rintro _ L b v hl h; cases h; exact ⟨b, hG hl⟩
  · rintro _ L b v hl h; cases h; exact hG hl
  · intro L b _ h; simp at h

/-- IP addresses: parsed addresses do not build again. -/
theorem meets_ip (hS : ¬ M.S) (hX : ¬ M.X) : Meets M e ipAddress F.ip := by
  refine meets_fixed 4 (fun _ b => .ok (.ipv4 b)) ?_ (fun h => lenEq_ip h) ?_ ?_ ?_ ?_ ?_ ?_ ?_
  · intro L ctx s
    simp only [ipAddress, adapter, bytesN]
    cases takeN 4 s <;> rfl
  · rintro u b v ⟨s, rfl, hl, hs, rfl⟩ L ctx _
    simp only [ipAddress, adapter, separated_iff.1 hs, ok_bind, bytesN_build hl]
    exact ⟨_, rfl⟩
  · rintro u b v ⟨s, rfl, hl, hs, rfl⟩ L; rfl
  · intro L ctx u b r _ h
    cases u <;> simp only [ipAddress, adapter, error_bind, bind_ok] at h <;> try (simp at h; done)
    obtain ⟨w, ⟨b1, h1, h2⟩, ⟨b2, r2⟩, h3, h4⟩ := h
    cases h2; cases h4
    obtain ⟨rfl, hl⟩ := bytesN_build_ok h3
    exact ⟨_, _, rfl, hl, separated_iff.2 h1, rfl⟩
  · exact fun h => absurd h hS
  · exact fun h => absurd h hS
  · exact fun h => absurd h hX
  · intro L b _ h; simp at h

theorem minLen_mac : MinLen macAddress 6 := minLen_adapter (minLen_bytesN 6)
theorem minLen_ip : MinLen ipAddress 4 := minLen_adapter (minLen_bytesN 4)

/-! ### Lengths and counts -/

theorem withLength_len {n : Nat} {p rest : List UInt8} {L ctx} (h : p.length < 256 ^ n) :
    (uintLE n).parse L ctx (leBytes n p.length ++ p ++ rest) = .ok (.int p.length, p ++ rest) := by
  have := (meets_uint (M := lossless) (e := false) n).dec (u := .int p.length) (b := leBytes n p.length) (v := .int p.length)
    ⟨p.length, rfl, trivial, leBytes_length _ _, leNat_leBytes _ _ h, rfl⟩ L ctx (p ++ rest) (by simp)
  rwa [List.append_assoc]

theorem meets_withLength (n : Nat) {c : Con UInt8} {G : Fmt UInt8} (hc : Meets M true c G) (hcons : M.X → ∀ {L ctx s v rest}, c.parse L ctx s = .ok (v, rest) → rest = [])
    (hsz : M.S → ¬ M.X → ∀ {u b v}, G u b v → b.length < 256 ^ n) :
    Meets M e (prefixed (uintLE n) c) (F.withLength n G) where
  enc := by
    rintro u b v ⟨p, hg, hl, rfl⟩ L ctx hT
    obtain ⟨r, hr⟩ := hc.enc hg L ctx hT
    have hb := uint_build (n := n) (u := .int p.length) (b := leBytes n p.length) (k := p.length) rfl (leBytes_length _ _) (leNat_leBytes _ _ hl) L ctx
    exact ⟨r, by simp [prefixed, hr, hb]⟩
  dec := by
    rintro u b v ⟨p, hg, hl, rfl⟩ L ctx rest _
    have h2 := hc.dec hg L ctx [] (by simp)
    rw [List.append_nil] at h2
    simp only [prefixed, withLength_len hl, ok_bind, asInt, Int.toNat_natCast, takeN_append rfl, h2]
  sound := by
    intro L ctx u b r hL h
    simp only [prefixed, bind_ok] at h
    obtain ⟨⟨b1, r1⟩, h1, ⟨l, r2⟩, h2, h3⟩ := h
    cases h3
    obtain ⟨v, hv⟩ := hc.sound hL h1
    obtain ⟨k, hk, rfl, hlt, -⟩ := build_uint h2
    simp only [asInt, Option.some.injEq] at hk
    have : k = b1.length := by omega
    subst this
    exact ⟨v, b1, hv, hlt, rfl⟩
  refl := by
    rintro hS u b v ⟨p, hg, hl, rfl⟩
    exact ⟨p, hc.refl hS hg, hl, rfl⟩
  inv := by
    intro hS L ctx s v rest h
    by_cases hX : M.X
    · simp only [prefixed, bind_ok] at h
      obtain ⟨⟨n', s'⟩, h1, h2⟩ := h
      obtain ⟨bl, hs, k, hk, -, hlen, hval, rfl⟩ := (meets_uint (M := lossless) (e := false) n).exact trivial h1
      simp only [asInt, bind_ok] at h2
      obtain ⟨⟨b, r⟩, h3, ⟨w, r'⟩, h4, h5⟩ := h2
      cases h5
      obtain ⟨rfl, hl⟩ := takeN_ok h3
      obtain ⟨b', hb', hg⟩ := hc.exact hX h4
      have := hcons hX h4
      subst this
      rw [List.append_nil] at hb'
      subst hb'
      refine ⟨_, b, hg, ?_, rfl⟩
      simp only [Int.toNat_natCast] at hl
      have := lt_of_leNat hlen hval
      omega
    · simp only [prefixed, bind_ok] at h
      obtain ⟨⟨n', s'⟩, h1, h2⟩ := h
      split at h2
      · simp only [bind_ok] at h2
        obtain ⟨⟨b, r⟩, h3, ⟨w, r'⟩, h4, h5⟩ := h2
        cases h5
        obtain ⟨b', hb'⟩ := hc.inv hS h4
        exact ⟨_, b', hb', hsz hS hX hb', rfl⟩
      · simp at h2
  exact := by
    intro hX L ctx s v rest h
    simp only [prefixed, bind_ok] at h
    obtain ⟨⟨n', s'⟩, h1, h2⟩ := h
    obtain ⟨bl, hs, k, hk, -, hlen, hval, rfl⟩ := (meets_uint (M := lossless) (e := false) n).exact trivial h1
    simp only [asInt, bind_ok] at h2
    obtain ⟨⟨b, r⟩, h3, ⟨w, r'⟩, h4, h5⟩ := h2
    cases h5
    obtain ⟨rfl, hl⟩ := takeN_ok h3
    obtain ⟨b', hb', hg⟩ := hc.exact hX h4
    have := hcons hX h4
    subst this
    rw [List.append_nil] at hb'
    subst hb'
    have hk' := lt_of_leNat hlen hval
    simp only [Int.toNat_natCast] at hl
    refine ⟨bl ++ b, by rw [hs, List.append_assoc], b, hg, by omega, ?_⟩
    rw [hl, ← hval, ← hlen, leBytes_leNat]
  nodiv := by
    intro L ctx s h
    simp only [prefixed, bind_err] at h
    rcases h with h | ⟨⟨n', s'⟩, h1, h⟩
    · exact (meets_uint (M := M) (e := false) n).nodiv _ _ _ h
    · split at h
      · simp only [bind_err] at h
        rcases h with h | ⟨_, _, h | ⟨_, _, h⟩⟩
        · have := (takeN_err h).1; simp at this
        · exact hc.nodiv _ _ _ h
        · simp at h
      · simp at h

theorem iter_list (vs : List Val) : iter (.list vs) = .ok vs := rfl

theorem meets_withCount (n : Nat) {c : Con UInt8} {G : Fmt UInt8} (hc : Meets M false c G) :
    Meets M e (prefixedArray (uintLE n) c) (F.withCount n G) where
  enc := by
    rintro u b v ⟨us, vs, p, hu, hl, hm, rfl, rfl⟩ L ctx hT
    have hr := many_enc hc hm L ctx hT
    have hb := uint_build (n := n) (u := .int us.length) (b := leBytes n us.length) (k := us.length) rfl (leBytes_length _ _) (leNat_leBytes _ _ hl) L ctx
    exact ⟨.list us, by simp only [prefixedArray, hu, ok_bind, hb, hr]⟩
  dec := by
    rintro u b v ⟨us, vs, p, hu, hl, hm, rfl, rfl⟩ L ctx rest _
    have h1 := (meets_uint (M := M) (e := false) n).dec (u := .int us.length) (b := leBytes n us.length) (v := .int us.length)
      ⟨us.length, rfl, trivial, leBytes_length _ _, leNat_leBytes _ _ hl, rfl⟩ L ctx (p ++ rest) (by simp)
    simp only [prefixedArray, List.append_assoc, h1, ok_bind, asInt, Int.toNat_natCast, many_dec hc hm L ctx rest]
  sound := by
    intro L ctx u b r hL h
    simp only [prefixedArray, bind_ok] at h
    obtain ⟨us, hu, ⟨l, r2⟩, h2, bs, h3, h4⟩ := h
    cases h4
    obtain ⟨vs, hv⟩ := many_sound hc hL h3
    obtain ⟨k, hk, rfl, hlt, -⟩ := build_uint h2
    simp only [asInt, Option.some.injEq] at hk
    have : k = us.length := by omega
    subst this
    exact ⟨_, us, vs, bs, hu, hlt, hv, rfl, rfl⟩
  refl := by
    rintro hS u b v ⟨us, vs, p, hu, hl, hm, rfl, rfl⟩
    have := manyRel_length hm
    exact ⟨vs, vs, p, rfl, by omega, many_refl hc hS hm, by rw [this], rfl⟩
  inv := by
    intro hS L ctx s v rest h
    simp only [prefixedArray, bind_ok] at h
    obtain ⟨⟨n', s'⟩, h1, h2⟩ := h
    obtain ⟨bl, hs, k, hk, -, hlen, hval, rfl⟩ := (meets_uint (M := lossless) (e := false) n).exact trivial h1
    simp only [asInt, bind_ok] at h2
    obtain ⟨⟨vs, r⟩, h3, h5⟩ := h2
    cases h5
    obtain ⟨hlv, b, hb⟩ := many_inv hc hS h3
    simp only [Int.toNat_natCast] at hlv
    have hk' := lt_of_leNat hlen hval
    exact ⟨_, vs, vs, b, rfl, by omega, hb, rfl, rfl⟩
  exact := by
    intro hX L ctx s v rest h
    simp only [prefixedArray, bind_ok] at h
    obtain ⟨⟨n', s'⟩, h1, h2⟩ := h
    obtain ⟨bl, hs, k, hk, -, hlen, hval, rfl⟩ := (meets_uint (M := lossless) (e := false) n).exact trivial h1
    simp only [asInt, bind_ok] at h2
    obtain ⟨⟨vs, r⟩, h3, h5⟩ := h2
    cases h5
    obtain ⟨hlv, b, hb, hm⟩ := many_exact hc hX h3
    simp only [Int.toNat_natCast] at hlv
    have hk' := lt_of_leNat hlen hval
    refine ⟨bl ++ b, by rw [hs, hb, List.append_assoc], vs, vs, b, rfl, by omega, hm, ?_, rfl⟩
    rw [hlv, ← hval, ← hlen, leBytes_leNat]
  nodiv := by
    intro L ctx s h
    simp only [prefixedArray, bind_err] at h
    rcases h with h | ⟨⟨n', s'⟩, h1, h⟩
    · exact (meets_uint (M := M) (e := false) n).nodiv _ _ _ h
    · split at h
      · simp only [bind_err] at h
        rcases h with h | ⟨_, _, h⟩
        · exact many_nodiv hc _ _ h
        · simp at h
      · simp at h

end
end BM
