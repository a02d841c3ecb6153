import Verif.FitInst
import Verif.Calendar
/-!
# Decoded values and the schema (C50): the constructs of the repository
-/
namespace BM.Capnp
open BM.Schema BM.Case Config

theorem fit_int12 {T : String} (h : intOK T false 16 = true) : FitInt (.type T) int12ul := fitInt_validator (fit_uint h (by decide))
theorem fit_scene {T : String} (h : intOK T false 16 = true) : FitInt (.type T) Scene.sceneNumber := fitInt_validator (fit_uint h (by decide))

/-- A floating-point type. -/
class IsFloat (T : String) : Prop where
  mem : T ∈ ["Float32", "Float64"]
instance : IsFloat "Float32" := ⟨by simp⟩
instance : IsFloat "Float64" := ⟨by simp⟩

section
variable {T : String} [hT : IsFloat T]
include hT

/-- Adapters that give numbers. -/
theorem fit_number {α : Type} {c : Con α} {dec enc : Lib → Val → R Val} (h : ∀ L u v, dec L u = .ok v → (∃ n, v = .int n) ∨ ∃ q, v = .flt q) :
    Fit (.type T) (adapter c dec enc) := by
  intro L ctx s v r hp
  obtain ⟨u, -, hd⟩ := parse_adapter hp
  rcases h L u v hd with ⟨n, rfl⟩ | ⟨q, rfl⟩
  · exact .floatInt hT.mem
  · exact .float hT.mem

theorem fit_delay : Fit (.type T) delay := fit_number (by
  intro L u v h
  unfold delayDecode at h
  split at h
  · injection h with h; exact .inr ⟨_, h.symm⟩
  · cases h)

theorem fit_count {c : Con UInt8} {w r res u} : Fit (.type T) (defaultCount c w r res u) := fit_number (by
  intro L u v h
  unfold countDecode at h
  split at h
  · split at h
    · injection h with h; exact .inr ⟨_, h.symm⟩
    · split at h
      · injection h with h; exact .inl ⟨_, h.symm⟩
      · injection h with h; exact .inr ⟨_, h.symm⟩
  · cases h)

theorem fit_timeExp [Platform] : Fit (.type T) Property.timeExp := fit_number (by
  intro L u v h
  unfold Property.timeExpDecode at h
  split at h
  · split at h
    · injection h with h; exact .inl ⟨_, h.symm⟩
    · rename_i n _ _
      cases hm : Platform.mpow (rnd (11 / 10)) (n - 64) with
      | error e => rw [hm] at h; cases h
      | ok x => rw [hm] at h; injection h with h; exact .inr ⟨_, h.symm⟩
  · cases h)

theorem fit_transition (b : Bool) : Fit (.type T) (transitionTime b) := fit_number (by
  intro L u v h
  unfold ttDecode at h
  split at h
  · rename_i d
    cases h1 : dgetE d "steps" with
    | error e => rw [h1] at h; cases h
    | ok x =>
      cases h2 : dgetE d "resolution" with
      | error e => rw [h1, h2] at h; cases h
      | ok y =>
        rw [h1, h2] at h
        simp only [ok_bind] at h
        split at h
        · split at h
          · injection h with h; exact .inr ⟨_, h.symm⟩
          · split at h
            · injection h with h; exact .inl ⟨_, h.symm⟩
            · split at h
              · injection h with h; exact .inl ⟨_, h.symm⟩
              · split at h
                · injection h with h; exact .inl ⟨_, h.symm⟩
                · cases h
        · cases h
  · cases h)

theorem fit_float [Platform] (w : Nat) : Fit (.type T) (DebugV2.floatLE w) := by
  intro L ctx s v r hp
  obtain ⟨b, hb, rfl⟩ := parse_take (f := fun b => .fbits w (leNat b)) hp
  exact .floatBits hT.mem
end

/-! ### Text -/

theorem fit_text {n} : Fit (.type "Text") (paddedString n) := by
  intro L ctx s v r hp
  simp only [paddedString] at hp
  cases ht : takeN n s with
  | error e => rw [ht] at hp; cases hp
  | ok x =>
    rw [ht] at hp
    simp only [ok_bind, bytesStr, utf8Decode] at hp
    split at hp
    · injection hp with hp; injection hp with hp _; subst hp; exact .text (by simp)
    · cases hp

theorem fit_fixedString (n) : Fit (.type "Text") (Property.fixedString n) := by
  intro L ctx s v r hp
  obtain ⟨u, hu, hd⟩ := parse_adapter hp
  injection hd with hd; subst hd
  exact fit_text _ _ _ _ _ hu

theorem fit_greedyString : Fit (.type "Text") greedyString := by
  intro L ctx s v r hp
  simp only [greedyString, bytesStr, utf8Decode] at hp
  split at hp
  · injection hp with hp; injection hp with hp _; subst hp; exact .text (by simp)
  · cases hp

theorem fit_mac : Fit (.type "Data") macAddress := by
  intro L ctx s v r hp
  obtain ⟨u, hu, hd⟩ := parse_adapter hp
  obtain ⟨b, -, rfl⟩ := parse_take (f := fun b => .bytes b) hu
  injection hd with hd; subst hd
  exact .text (by simp)

/-! ### Dates -/

theorem holds_small {w : Nat} {k : Int} (h0 : 0 ≤ k) (h : k < 2 ^ w) : Holds false w k := by
  simp only [Holds, Bool.false_eq_true, if_false]; exact ⟨h0, h⟩

theorem in_u8 {k : Int} (h0 : 0 ≤ k) (h : k < 256) : Accepts schema "UInt8" (.int k) := .int (s := false) (w := 8) (by simp [intTypes]) (holds_small h0 h)
theorem in_u16 {k : Int} (h0 : 0 ≤ k) (h : k < 65536) : Accepts schema "UInt16" (.int k) := .int (s := false) (w := 16) (by simp [intTypes]) (holds_small h0 h)

theorem month_days (y m : Int) : Property.daysInMonth y m ≤ 31 := by
  unfold Property.daysInMonth; split <;> (try split) <;> (try split) <;> omega

theorem fit_date : Fit (.type "GenericPropertyMessageParams") Property.dateC := by
  intro L ctx s v r hp
  obtain ⟨u, hu, hd⟩ := parse_adapter hp
  obtain ⟨b, -, rfl⟩ := parse_take (f := fun b => .int (leNat b)) hu
  simp only [Property.dateDecode, asInt] at hd
  split at hd
  · rename_i hl
    injection hd with hd; subst hd
    obtain ⟨y, m, d, hc, h1, h2, h3, h4, -, hy⟩ := civil_date (leNat b)
    obtain ⟨hy1, hy2⟩ := hy (by omega) hl
    have := month_days y m
    show Accepts schema "GenericPropertyMessageParams" (dateDict _)
    simp only [dateDict, hc]
    refine .struct (IsPlain.mem (T := "GenericPropertyMessageParams")) (.mk ?_ fun us hm => absurd hm (IsPlain.plain "GenericPropertyMessageParams" us))
    refine forall_pair_cons ?_ (forall_pair_cons ?_ (forall_pair_cons ?_ forall_pair_nil))
    · exact HasMember.takes (T := .type "UInt16") _ (in_u16 (by omega) (by omega))
    · exact HasMember.takes (T := .type "UInt8") _ (in_u8 (by omega) (by omega))
    · exact HasMember.takes (T := .type "UInt8") _ (in_u8 (by omega) (by omega))
  · cases hd

/-! ### Other constructs -/

theorem fit_ints {l : List Int} {T E : String} [hT : IsList T E] (h : ∀ k ∈ l, Accepts schema E (.int k)) : Slot.Takes (.type T) (.list (l.map .int)) := by
  rw [hT.eq]
  refine .list ?_
  intro v hv
  obtain ⟨k, hk, rfl⟩ := List.mem_map.1 hv
  exact h k hk

theorem bitIndices_lt : ∀ {l : List Bool} {i : Nat} {k : Int}, k ∈ bitIndices i l → 0 ≤ k ∧ k < (i + l.length : Nat)
  | [], i, k, h => by cases h
  | b :: l, i, k, h => by
    have key : k ∈ bitIndices (i + 1) l → 0 ≤ k ∧ k < ((i + (b :: l).length : Nat) : Int) := by
      intro h
      have := bitIndices_lt h
      simp only [List.length_cons]
      refine ⟨this.1, ?_⟩
      have h2 := this.2
      push_cast at h2 ⊢
      omega
    cases b with
    | true =>
      simp only [bitIndices, if_true] at h
      rcases List.mem_cons.1 h with rfl | h
      · simp only [List.length_cons]; push_cast; omega
      · exact key h
    | false => simp only [bitIndices, Bool.false_eq_true, if_false] at h; exact key h

theorem fit_bitList {T E : String} [hT : IsList T E] {n} (hE : intOK E false 8 = true) (hn : n ≤ 31) : Fit (.type T) (bitList n) := by
  intro L ctx s v r hp
  obtain ⟨b, hb, rfl⟩ := parse_take (f := fun b => .set (bitIndices 0 (bytesBits b))) hp
  refine fit_ints (E := E) ?_
  intro k hk
  have := bitIndices_lt hk
  rw [bytesBits_length, hb] at this
  refine accepts_int hE (n := 8) (holds_small this.1 ?_) (by decide)
  have h2 := this.2
  push_cast at h2
  omega

theorem fit_keyIndices : Fit (.type "List(UInt16)") keyIndices := by
  intro L ctx s v r hp
  simp only [keyIndices, greedyRange] at hp
  cases hg : greedyLoop (keyIndicesItem.parse L ctx) s.length s with
  | error e' => rw [hg] at hp; cases hp
  | ok x =>
    obtain ⟨vs, t⟩ := x
    have hi := greedy_items_inv _ hg
    rw [hg] at hp
    simp only [ok_bind] at hp
    cases hf : flattenItems vs with
    | error e => rw [hf] at hp; cases hp
    | ok w =>
      obtain ⟨ks, hk, rfl⟩ := flatten_inv hi hf
      rw [hf] at hp
      simp only [ok_bind, withKeys_ints] at hp
      injection hp with hp; injection hp with hp _; subst hp
      obtain ⟨ss, h1, -, h3⟩ := sorted_ints ks
      rw [h3]
      refine takes_list (T := "UInt16") ?_
      intro v hv
      obtain ⟨k, hk', rfl⟩ := List.mem_map.1 hv
      have := hk k (h1.mem_iff.1 hk')
      exact in_u16 (by omega) (by omega)

theorem intSet_mem : ∀ {vs : List Val} {l : List Int}, intSet vs = .ok l → ∀ k ∈ l, ∃ v ∈ vs, asInt v = some k
  | [], l, h, k, hk => by injection h with h; subst h; cases hk
  | v :: vs, l, h, k, hk => by
    simp only [intSet] at h
    cases hv : asInt v with
    | none => rw [hv] at h; cases h
    | some n =>
      rw [hv] at h
      simp only [] at h
      cases hs : intSet vs with
      | error e => rw [hs] at h; cases h
      | ok l' =>
        rw [hs] at h
        injection h with h
        subst h
        have key : k = n ∨ k ∈ l' := (insertInt_mem n).1 hk
        rcases key with rfl | hk
        · exact ⟨v, List.mem_cons_self, hv⟩
        · obtain ⟨w, hw, hk⟩ := intSet_mem hs k hk
          exact ⟨w, List.mem_cons_of_mem _ hw, hk⟩

theorem fit_set {T E : String} [hT : IsList T E] {c : Con UInt8} (h : FitInt (.type E) c) : Fit (.type T) (setAdapter (greedyRange c)) := by
  intro L ctx s v r hp
  obtain ⟨u, hu, hd⟩ := parse_adapter hp
  simp only [greedyRange] at hu
  cases hg : greedyLoop (c.parse L ctx) s.length s with
  | error e => rw [hg] at hu; cases hu
  | ok x =>
    rw [hg] at hu
    injection hu with hu; injection hu with hu _; subst hu
    have hall := greedyLoop_all (Q := fun v => ∃ n : Int, v = .int n ∧ Accepts schema E (.int n)) (fun s v r hv => h L ctx s v r hv) _ _ _ _ hg
    dsimp only at hd
    cases hi : intSet x.1 with
    | error e => rw [hi] at hd; cases hd
    | ok l =>
      rw [hi] at hd
      injection hd with hd; subst hd
      refine fit_ints (E := E) ?_
      intro k hk
      obtain ⟨v, hv, hk⟩ := intSet_mem hi k hk
      obtain ⟨n, rfl, hn⟩ := hall v hv
      injection hk with hk; subst hk
      exact hn

/-- The structure the retransmission adapter gives. -/
theorem fit_retransmit (i : Nat) (hi : 32 * i < 65536) {T : String} {fs : List Tree} [hT : IsPlain T fs] [hc : HasMember fs "count" (.type "UInt8")]
    [hm : HasMember fs "interval" (.type "UInt16")] : Fit (.type T) (retransmit i) := by
  intro L ctx s v r hp
  obtain ⟨u, hu, hd⟩ := parse_adapter hp
  simp only [retransmitBits, bitwise] at hu
  cases ht : takeN 1 s with
  | error e => rw [ht] at hu; cases hu
  | ok x =>
    rw [ht] at hu
    simp only [ok_bind] at hu
    cases hs : (struct [field "interval_steps" (ubits 5), field "count" (ubits 3)]).parse L ctx (bytesBits x.1) with
    | error e => rw [hs] at hu; cases hu
    | ok y =>
      rw [hs] at hu
      injection hu with hu; injection hu with hu _; subst hu
      obtain ⟨d, hd', hi'⟩ := parse_struct hs
      simp only [parseItems] at hi'
      cases h1 : (field "interval_steps" (ubits 5)).parse L [] (bytesBits x.1) with
      | error e => rw [h1] at hi'; cases hi'
      | ok z =>
        obtain ⟨d1, t1⟩ := z
        rw [h1] at hi'
        simp only [ok_bind] at hi'
        obtain ⟨v1, hv1, rfl⟩ := parse_field h1
        cases h2 : (field "count" (ubits 3)).parse L (dset [] "interval_steps" v1) t1 with
        | error e => rw [h2] at hi'; cases hi'
        | ok z =>
          obtain ⟨d2, t2⟩ := z
          rw [h2] at hi'
          injection hi' with hi'; injection hi' with hi' _; subst hi'
          obtain ⟨v2, hv2, rfl⟩ := parse_field h2
          obtain ⟨b1, hb1, rfl⟩ := parse_take (f := fun b => .int (bitsNat b)) hv1
          obtain ⟨b2, hb2, rfl⟩ := parse_take (f := fun b => .int (bitsNat b)) hv2
          rw [hd'] at hd
          have l1 := bitsNat_lt b1
          have l2 := bitsNat_lt b2
          rw [hb1] at l1
          rw [hb2] at l2
          have : v = .dict [("count", .int (bitsNat b2)), ("interval", .int ((bitsNat b1 + 1) * i))] := by
            injection hd with hd; exact hd.symm
          subst this
          have hcamel : toCamelcaseDict (.dict [("count", .int (bitsNat b2)), ("interval", .int ((bitsNat b1 + 1) * i))])
              = .dict [("count", .int (bitsNat b2)), ("interval", .int ((bitsNat b1 + 1) * i))] := by with_unfolding_all rfl
          rw [hcamel]
          refine .struct hT.mem (.mk ?_ fun us hm => absurd hm (hT.plain us))
          refine forall_pair_cons ?_ (forall_pair_cons ?_ forall_pair_nil)
          · exact hc.takes _ (in_u8 (by omega) (by omega))
          · refine hm.takes _ (in_u16 (by positivity) ?_)
            have : ((bitsNat b1 : Int) + 1) * i ≤ 32 * i := Int.mul_le_mul_of_nonneg_right (by omega) (by omega)
            omega

end BM.Capnp
