import Verif.ServedAll
/-!
# Properties of access messages (C03–C08)
-/
namespace BM.Props
open Tables

variable [Platform]

/-- **C05.** Every object that the specification accepts is built to the specified bytes, whichever way the opcode is spelled
and under whichever of the two keys the payload is given; the bytes parse to the canonical form of the object. -/
theorem C05_encode_decode {m : MsgSpec} (hm : m ∈ Spec.messages) {u b v} (h : m.fmt u b v) (L : Lib) {d : Dict} {k : Val}
    (hk : dget d "opcode" = some k) (hs : Spells m k) (hp : payload m d = some u) :
    (∃ o, accessBuild registry L (.dict d) = .ok (header m ++ b, o)) ∧
    ∃ cls subcls, accessParse registry L (header m ++ b) = .ok (report m cls subcls v, []) := by
  have hS := served_all m hm
  constructor
  · obtain ⟨cls, hb⟩ := hS.build registry_ok h L False.elim hk hs hp
    exact ⟨_, hb⟩
  · obtain ⟨c, cls, scls, hM, hb⟩ := hS.parse registry_ok
    obtain ⟨ctx, hb⟩ := hb L b
    refine ⟨cls, scls, ?_⟩
    have := hM.dec h L ctx [] (fun _ => rfl)
    rw [List.append_nil] at this
    rw [hb, this]

/-- **C06.** Whatever bytes parse as a stable message, the parsed object can be built, and parsing the result returns an equal
object. -/
theorem C06_reencode {m : MsgSpec} (hm : m ∈ Spec.stable) (L : Lib) {s rest : List UInt8} {v : Val}
    (h : accessParse registry L (header m ++ s) = .ok (v, rest)) :
    ∃ bs, (accessBuild registry L v).map Prod.fst = .ok bs ∧ accessParse registry L bs = .ok (v, []) := by
  have hS := served_stable m hm
  obtain ⟨c, cls, scls, hM, hb⟩ := hS.parse registry_ok
  obtain ⟨ctx, hb1⟩ := hb L s
  rw [hb1] at h
  split at h
  · rename_i v' rest' hv
    simp only [Except.ok.injEq, Prod.mk.injEq] at h
    obtain ⟨rfl, rfl⟩ := h
    obtain ⟨b, hG⟩ := hM.inv trivial hv
    obtain ⟨d, hd, hk, hp⟩ := hS.report cls scls v'
    obtain ⟨cls', hbuild⟩ := hS.build registry_ok hG L False.elim hk (.inl rfl) hp
    refine ⟨header m ++ b, ?_, ?_⟩
    · rw [hd, hbuild]; rfl
    · obtain ⟨ctx, hb2⟩ := hb L b
      have := hM.dec hG L ctx [] (fun _ => rfl)
      rw [List.append_nil] at this
      rw [hb2, this]
  · simp at h

/-- **C07.** A lossless message that is parsed to its end re-encodes to exactly the received bytes. -/
theorem C07_lossless {m : MsgSpec} (hm : m ∈ Spec.lossless) (L : Lib) {s : List UInt8} {v : Val}
    (h : accessParse registry L (header m ++ s) = .ok (v, [])) :
    (accessBuild registry L v).map Prod.fst = .ok (header m ++ s) := by
  have hS := served_lossless m hm
  obtain ⟨c, cls, scls, hM, hb⟩ := hS.parse registry_ok
  obtain ⟨ctx, hb1⟩ := hb L s
  rw [hb1] at h
  split at h
  · rename_i v' rest' hv
    simp only [Except.ok.injEq, Prod.mk.injEq] at h
    obtain ⟨rfl, rfl⟩ := h
    obtain ⟨b, hs, hG⟩ := hM.exact trivial hv
    rw [List.append_nil] at hs; subst hs
    obtain ⟨d, hd, hk, hp⟩ := hS.report cls scls v'
    obtain ⟨cls', hbuild⟩ := hS.build registry_ok hG L False.elim hk (.inl rfl) hp
    rw [hd, hbuild]; rfl
  · simp at h

/-- **C08.** If building succeeds, the payload is one that the specification accepts, and the bytes are the specified ones
(provided the library rejects integers that do not fit their bit or byte field).  The objects excluded as `odd` are listed in the
specification; there are none for most messages. -/
theorem C08_build_sound {m : MsgSpec} (hm : m ∈ Spec.messages) {L : Lib} (hL : L.Strict) {d : Dict} {k u : Val} {bs : List UInt8} {o : Val}
    (hk : dget d "opcode" = some k) (hs : Spells m k) (hp : payload m d = some u)
    (h : accessBuild registry L (.dict d) = .ok (bs, o)) (ho : ¬ m.odd u) :
    ∃ b v, m.fmt u b v ∧ bs = header m ++ b := by
  obtain ⟨c, ctx, b, r, hM, hb, rfl⟩ := (served_all m hm).built registry_ok L hk hs hp h
  obtain ⟨v, hG⟩ := hM.sound (fun _ => hL) ho hb
  exact ⟨b, v, hG, rfl⟩

/-- **C08.** Without parameters nothing is built. -/
theorem C08_payload_required {m : MsgSpec} (hm : m ∈ Spec.messages) (L : Lib) {d : Dict} {k : Val}
    (hk : dget d "opcode" = some k) (hs : Spells m k) (h1 : dget d m.name = none) (h2 : dget d "params" = none) :
    accessBuild registry L (.dict d) = .error .key := by
  obtain ⟨e, he, g1, g2, g3, C, c, g4, -⟩ := served_all m hm
  rw [access_build registry_ok he g1 g2 g3 g4 L hk hs]
  simp [outerPayload, h1, h2]

end BM.Props
