import Verif.Period
import Verif.MeetsComposition
import Verif.Props.Scheduler
/-!
# The publication period (C39)
-/
namespace BM.Props

/-- The period of Mesh Profile 4.2.2.2 in milliseconds: the number of steps in the six low bits of the octet, their length in the two high bits. -/
def periodOf (octet : Nat) : Nat :=
  octet % 64 * (match octet / 64 with | 0 => 100 | 1 => 1000 | 2 => 10000 | _ => 600000)

theorem octet_bits (r k : Nat) (hr : r < 4) (hk : k < 64) : natBits 8 (r * 64 + k) = natBits 2 r ++ natBits 6 k :=
  natBits_add (n := 2) (m := 6) (a := r) (b := k) (by simpa using hr) (by simpa using hk)

theorem resolution_has {r : Nat} (hr : r < 4) : E.PublishPeriodStepResolution.has r = true := by
  match r, hr with
  | 0, _ | 1, _ | 2, _ | 3, _ => decide +kernel

theorem period_mul {r k : Nat} (hr : r < 4) (hk : k < 64) : ∃ u : Int, Config.multiplier r = some u ∧ u * k = periodOf (r * 64 + k) := by
  have h1 : (r * 64 + k) / 64 = r := by omega
  have h2 : (r * 64 + k) % 64 = k := by omega
  unfold periodOf
  rw [h1, h2]
  match r, hr with
  | 0, _ => exact ⟨100, rfl, by push_cast; omega⟩
  | 1, _ => exact ⟨1000, rfl, by push_cast; omega⟩
  | 2, _ => exact ⟨10000, rfl, by push_cast; omega⟩
  | 3, _ => exact ⟨600000, rfl, by push_cast; omega⟩

/-- **C39 (parse).** Every period octet is accepted, and the reported number of steps times the `multiplier` of the reported resolution is the period the
octet denotes. -/
theorem C39_parse (b : UInt8) (L : Lib) (ctx : Dict) (rest : List UInt8) :
    ∃ r k u : Int, Config.publishPeriod.parse L ctx (b :: rest) =
        .ok (.dict [("step_resolution", .enum "PublishPeriodStepResolution" r), ("number_of_steps", .int k)], rest) ∧
      Config.multiplier r = some u ∧ u * k = periodOf b.toNat := by
  have hb := b.toNat_lt
  have hr : b.toNat / 64 < 4 := by omega
  have hk : b.toNat % 64 < 64 := by omega
  have he : b.toNat / 64 * 64 + b.toNat % 64 = b.toNat := by omega
  obtain ⟨u, h1, h2⟩ := period_mul hr hk
  rw [he] at h2
  refine ⟨(b.toNat / 64 : Nat), (b.toNat % 64 : Nat), u, ?_, h1, h2⟩
  have hbits : bytesBits [b] = natBits 2 (b.toNat / 64) ++ (natBits 6 (b.toNat % 64) ++ []) := by
    rw [bytesBits_cons, ← he, octet_bits _ _ hr hk, he]; simp [bytesBits]
  have p1 : (enumAdapter (ubits 2) E.PublishPeriodStepResolution).parse L [] (bytesBits [b]) =
      .ok (.enum "PublishPeriodStepResolution" (b.toNat / 64 : Nat), natBits 6 (b.toNat % 64) ++ []) := by
    rw [hbits]
    have hl : b.toNat / 64 < 2 ^ 2 := by simpa using hr
    simp only [enumAdapter, adapter, ubits_read hl, ok_bind, enumDecode, hashInt, asInt, resolution_has hr, if_true]
    rfl
  have p2 := two_parse (k1 := "step_resolution") (k2 := "number_of_steps") (ctx := ctx) (by decide) p1
    (ubits_read (n := 6) (k := b.toNat % 64) (by simpa using hk) L _ [])
  simp only [Config.publishPeriod, bitwise, takeN_one, ok_bind, p2]

/-- **C39 (build).** A resolution (as member, number or name) and a number of steps below 64 are written as one octet that denotes this number of steps. -/
theorem C39_build {r k : Nat} (hr : r < 4) (hk : k < 64) {v w : Val} (hv : hashInt v = some (r : Int) ∨
      ∃ s, v = .str s ∧ lookupName E.PublishPeriodStepResolution.members s = some (r : Int))
    (hw : asInt w = some (k : Int)) (L : Lib) (ctx : Dict) :
    ∃ b x u, Config.publishPeriod.build L ctx (.dict [("step_resolution", v), ("number_of_steps", w)]) = .ok ([b], x) ∧
      Config.multiplier r = some u ∧ u * k = periodOf b.toNat := by
  obtain ⟨u, h1, h2⟩ := period_mul hr hk
  have hlt : r * 64 + k < 256 := by omega
  have henc : enumEncode E.PublishPeriodStepResolution v = .ok (.enum "PublishPeriodStepResolution" r) := by
    rcases hv with hv | ⟨s, rfl, hs⟩
    · have : ∀ s, v ≠ .str s := by rintro s rfl; simp [hashInt, asInt] at hv
      unfold enumEncode
      split
      · rename_i s; exact absurd rfl (this s)
      · simp only [hv, resolution_has hr, if_true]; rfl
    · simp only [enumEncode, hs]; rfl
  have b1 : ∀ c, (enumAdapter (ubits 2) E.PublishPeriodStepResolution).build L c v = .ok (natBits 2 r, v) := by
    intro c
    simp only [enumAdapter, adapter, henc, ok_bind]
    rw [ubits_eq (n := 2) (k := r) rfl (by simpa using hr)]
    rfl
  obtain ⟨x, hx⟩ := two_build (k1 := "step_resolution") (k2 := "number_of_steps") (ctx := ctx) (L := L)
    (c1 := enumAdapter (ubits 2) E.PublishPeriodStepResolution) (c2 := ubits 6) (by decide) rfl rfl (b1 _)
    (fun _ _ => ubits_eq (n := 6) (k := k) hw (by simpa using hk))
  refine ⟨UInt8.ofNat (r * 64 + k), x, u, ?_, h1, ?_⟩
  · have hbb : bitsBytes (natBits 2 r ++ natBits 6 k) = some [UInt8.ofNat (r * 64 + k)] := by
      rw [← octet_bits r k hr hk]
      have : natBits 8 (r * 64 + k) = bytesBits [UInt8.ofNat (r * 64 + k)] := by
        rw [bytesBits_cons, show (UInt8.ofNat (r * 64 + k)).toNat = r * 64 + k by
          rw [UInt8.toNat_ofNat']; exact Nat.mod_eq_of_lt hlt]
        simp [bytesBits]
      rw [this, bitsBytes_bytesBits]
    simp only [Config.publishPeriod, bitwise, hx, ok_bind, List.length_append, natBits_length, hbb]
    rfl
  · rw [show (UInt8.ofNat (r * 64 + k)).toNat = r * 64 + k by rw [UInt8.toNat_ofNat']; exact Nat.mod_eq_of_lt hlt]
    exact h2

/-- **C39 (refused).** More steps than 63, or a resolution that is none of the four, are refused (with a library that rejects numbers that do not fit). -/
theorem C39_refused {L : Lib} (hL : L.Strict) {v w : Val} (ctx : Dict)
    (h : (∀ k : Nat, asInt w = some (k : Int) → 64 ≤ k) ∨ (∀ r : Int, hashInt v = some r → r < 0 ∨ 4 ≤ r) ∧ ∀ s, v ≠ .str s) :
    ∃ e, Config.publishPeriod.build L ctx (.dict [("step_resolution", v), ("number_of_steps", w)]) = .error e := by
  cases hb : Config.publishPeriod.build L ctx (.dict [("step_resolution", v), ("number_of_steps", w)]) with
  | error e => exact ⟨e, rfl⟩
  | ok r =>
    exfalso
    have n1 : (enumAdapter (ubits 2) E.PublishPeriodStepResolution).buildNone = false := rfl
    have n2 : (ubits 6).buildNone = false := rfl
    have g1 : dget [("step_resolution", v), ("number_of_steps", w)] "number_of_steps" = some w := by simp [dget]
    simp only [Config.publishPeriod, bitwise, struct, asDict, buildItems, field, ok_bind, dgetE, dget_cons_self, n1, n2, g1, Bool.false_eq_true,
      if_false] at hb
    obtain ⟨⟨bs, x⟩, hb, -⟩ := bind_ok.1 hb
    obtain ⟨⟨bs', ctx'⟩, hb, -⟩ := bind_ok.1 hb
    obtain ⟨⟨b1, c1⟩, h1, hb⟩ := bind_ok.1 hb
    obtain ⟨⟨b2, c2⟩, h2, -⟩ := bind_ok.1 hb
    obtain ⟨⟨b1', r1⟩, h1, -⟩ := bind_ok.1 h1
    obtain ⟨⟨b2', c2'⟩, h2, -⟩ := bind_ok.1 h2
    obtain ⟨⟨b2'', r2⟩, h2, -⟩ := bind_ok.1 h2
    rcases h with h | ⟨h, hs⟩
    · obtain ⟨k, hk, hlt, -, -⟩ := ubits_ok hL h2
      have := h k hk
      norm_num at hlt
      omega
    · simp only [enumAdapter, adapter] at h1
      obtain ⟨y, h1, -⟩ := bind_ok.1 h1
      unfold enumEncode at h1
      split at h1
      · exact hs _ rfl
      · split at h1
        · rename_i n hn
          have hn' := h n hn
          split at h1
          · rename_i hh
            have : ∀ m ∈ E.PublishPeriodStepResolution.members, 0 ≤ m.2 ∧ m.2 < 4 := by decide +kernel
            simp only [EnumDef.has, List.any_eq_true, beq_iff_eq] at hh
            obtain ⟨m, hm, rfl⟩ := hh
            have := this m hm
            omega
          · cases h1
        · cases h1

-- 20 steps of ten seconds
example : periodOf 0x94 = 200000 := by decide
example : lookupName E.PublishPeriodStepResolution.members "RESOLUTION_10_S" = some (2 : Int) := by decide +kernel

end BM.Props
