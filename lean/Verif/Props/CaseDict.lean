import Verif.Props.Case
import Verif.Calendar
/-!
# Conversion of dictionaries (C30)
-/
namespace BM.Props
open Case

/-! ### What is kept of a value -/

/-- The parts of a local date and time, with the offset in minutes. -/
def dateParts (micros offset : Int) : Val :=
  let u := micros + offset
  let t := u % 86400000000
  let (y, m, d) := civil (u / 86400000000)
  .dict [("year", .int y), ("month", .int m), ("day", .int d), ("hour", .int (t / 3600000000)), ("minute", .int (t / 60000000 % 60)),
    ("second", .int (t / 1000000 % 60)), ("microsecond", .int (t % 1000000)), ("time_zone_offset", .flt (fdiv (totalSeconds offset) 60))]

/-- A byte string as text: two lower-case hexadecimal digits for each byte. -/
def hexText (b : List UInt8) : String :=
  String.ofList (b.flatMap fun x => ["0123456789abcdef".toList.getD (x.toNat / 16) '?', "0123456789abcdef".toList.getD (x.toNat % 16) '?'])

/-- The parts of a date. -/
def dayParts (days : Int) : Val := .dict [("year", .int (civil days).1), ("month", .int (civil days).2.1), ("day", .int (civil days).2.2)]

mutual
/-- A value without the names of the classes of its enumerations and its containers: members are numbers, byte strings are hexadecimal, sets
are lists, durations are seconds, dates are dictionaries; private entries are dropped; a named container becomes a dictionary with one
entry. -/
def plainValue : Val → Val
  | .dict d =>
    match dget d "_name" with
    | some (.str name) => if name = "" then .dict (plainEntries d) else .dict [(name, .dict (plainEntries d))]
    | _ => .dict (plainEntries d)
  | .set l => .list (l.map .int)
  | .list l => .list (plainList l)
  | .enum _ n => .int n
  | .bytes b => .str (hexText b)
  | .datetime m off => dateParts m off
  | .date n => dayParts n
  | .timedelta n => .flt (totalSeconds n)
  | v => v
def plainEntries : List (String × Val) → Dict
  | [] => []
  | (k, v) :: d => if isPrivate k then plainEntries d else (k, plainValue v) :: plainEntries d
def plainList : List Val → List Val
  | [] => []
  | v :: l => plainValue v :: plainList l
end

mutual
/-- All public keys survive the conversion of names. -/
def Convertible : Val → Prop
  | .dict d => (d.map Prod.fst).Nodup ∧ (∀ name, dget d "_name" = some (.str name) → name ≠ "" → snakecase name = name ∧ isPrivate name = false) ∧
      ConvertibleEntries d
  | .list l => ConvertibleList l
  | _ => True
def ConvertibleEntries : List (String × Val) → Prop
  | [] => True
  | (k, v) :: d => (isPrivate k = false → snakecase (camelcase k) = k ∧ Convertible v) ∧ ConvertibleEntries d
def ConvertibleList : List Val → Prop
  | [] => True
  | v :: l => Convertible v ∧ ConvertibleList l
end

/-! ### Proof -/

theorem private_char {s : List Char} (h : isPrivate (String.ofList s) = true) : ∃ r, s = '_' :: r := by
  simp only [isPrivate, String.toList_ofList, beq_iff_eq] at h
  cases s with
  | nil => simp at h
  | cons c s => simp at h; subst h; exact ⟨s, rfl⟩

theorem camel_public {k : String} (h : snakecase (camelcase k) = k) : isPrivate (camelcase k) = false := by
  cases hp : isPrivate (camelcase k) with
  | false => rfl
  | true =>
    exfalso
    rcases (C30_roundtrip k).1 h with rfl | ⟨x, t, hw, rfl, -⟩
    · revert hp; decide +kernel
    · obtain ⟨r, hr⟩ := private_char hp
      rw [String.toList_ofList, camel_nameOf hw] at hr
      have hx := hw x (by simp)
      cases x with
      | nil => exact hx.1 rfl
      | cons c x =>
        simp only [List.cons_append, List.cons.injEq] at hr
        have := hx.2 c (by simp)
        rw [hr.1] at this
        revert this; decide

theorem camel_inj {k k' : String} (h : snakecase (camelcase k) = k) (h' : snakecase (camelcase k') = k') (he : camelcase k = camelcase k') : k = k' := by
  rw [← h, ← h', he]

theorem items_acc (case : String → String) : ∀ (d : List (String × Val)) (acc : Dict),
    (∀ kv ∈ d, isPrivate kv.1 = false → case kv.1 ∉ dkeys acc) →
    (d.Pairwise fun a b => isPrivate a.1 = false → isPrivate b.1 = false → case a.1 ≠ case b.1) →
    toCaseItems case acc d = acc ++ (d.filter fun kv => !isPrivate kv.1).map fun kv => (case kv.1, toCase case kv.2) := by
  intro d
  induction d with
  | nil => intro acc _ _; simp [toCaseItems]
  | cons kv d ih =>
    obtain ⟨k, v⟩ := kv
    intro acc h1 h2
    rw [toCaseItems]
    obtain ⟨h3, h4⟩ := List.pairwise_cons.1 h2
    cases hp : isPrivate k with
    | true =>
      rw [if_pos rfl, ih acc (fun kv hkv => h1 kv (by simp [hkv])) h4]
      simp [hp]
    | false =>
      have hk := h1 (k, v) (by simp) hp
      rw [if_neg (by simp), dset_of_not_mem _ _ _ hk, ih _ ?_ h4]
      · simp [hp]
      · intro kv hkv hq
        rw [dkeys_append]
        intro hm
        rcases List.mem_append.1 hm with hm | hm
        · exact h1 kv (by simp [hkv]) hq hm
        · simp only [dkeys, List.map_cons, List.map_nil, List.mem_singleton] at hm
          exact h3 kv hkv hp hq hm.symm

theorem entries_mem : ∀ {d : List (String × Val)}, ConvertibleEntries d → ∀ kv ∈ d, isPrivate kv.1 = false → snakecase (camelcase kv.1) = kv.1 ∧ Convertible kv.2
  | [], _, kv, h => by simp at h
  | (k, v) :: d, hc, kv, h => by
    rw [ConvertibleEntries] at hc
    rcases List.mem_cons.1 h with rfl | h
    · exact hc.1
    · exact entries_mem hc.2 kv h

theorem plainEntries_eq : ∀ d : List (String × Val), plainEntries d = (d.filter fun kv => !isPrivate kv.1).map fun kv => (kv.1, plainValue kv.2)
  | [] => by simp [plainEntries]
  | (k, v) :: d => by
    rw [plainEntries, plainEntries_eq d]
    cases hp : isPrivate k <;> simp [hp]

theorem public_name (d : Dict) (h : ∀ kv ∈ d, isPrivate kv.1 = false) : dget d "_name" = none := by
  induction d with
  | nil => rfl
  | cons kv d ih =>
    obtain ⟨k, v⟩ := kv
    have hk := h (k, v) (by simp)
    rw [dget, if_neg, ih (fun kv hkv => h kv (by simp [hkv]))]
    rintro rfl
    have hp : isPrivate "_name" = true := by decide +kernel
    simp [hp] at hk

/-- The camel-case dictionary. -/
theorem camel_items {d : List (String × Val)} (hn : (d.map Prod.fst).Nodup) (hc : ConvertibleEntries d) :
    toCaseItems camelcase [] d = (d.filter fun kv => !isPrivate kv.1).map fun kv => (camelcase kv.1, toCase camelcase kv.2) := by
  rw [items_acc camelcase d [] (by simp [dkeys])]
  · simp
  · have hp : d.Pairwise (fun a b => a.1 ≠ b.1) := by rwa [List.Nodup, List.pairwise_map] at hn
    refine hp.imp_of_mem ?_
    intro a b ha hb hne h1 h2 he
    exact hne (camel_inj (entries_mem hc a ha h1).1 (entries_mem hc b hb h2).1 he)

theorem snake_items {d : List (String × Val)} (hn : (d.map Prod.fst).Nodup) (hc : ConvertibleEntries d)
    (hv : ∀ kv ∈ d, isPrivate kv.1 = false → toCase snakecase (toCase camelcase kv.2) = plainValue kv.2) :
    toCase snakecase (.dict (toCaseItems camelcase [] d)) = .dict (plainEntries d) := by
  have hmem : ∀ kv ∈ toCaseItems camelcase [] d, ∃ kv' ∈ d, isPrivate kv'.1 = false ∧ kv = (camelcase kv'.1, toCase camelcase kv'.2) := by
    intro kv hkv
    rw [camel_items hn hc] at hkv
    obtain ⟨kv', h1, rfl⟩ := List.mem_map.1 hkv
    obtain ⟨h1, h2⟩ := List.mem_filter.1 h1
    exact ⟨kv', h1, by simpa using h2, rfl⟩
  have hpub : ∀ kv ∈ toCaseItems camelcase [] d, isPrivate kv.1 = false := by
    intro kv hkv
    obtain ⟨kv', h1, h2, rfl⟩ := hmem kv hkv
    exact camel_public (entries_mem hc kv' h1 h2).1
  rw [toCase, public_name _ hpub]
  simp only
  congr 1
  rw [items_acc snakecase _ [] (by simp [dkeys])]
  · rw [List.nil_append, List.filter_eq_self.2 (fun kv hkv => by simp [hpub kv hkv]), camel_items hn hc, plainEntries_eq, List.map_map]
    refine List.map_congr_left fun kv hkv => ?_
    obtain ⟨h1, h2⟩ := List.mem_filter.1 hkv
    have h2 : isPrivate kv.1 = false := by simpa using h2
    simp only [Function.comp, (entries_mem hc kv h1 h2).1, hv kv h1 h2]
  · rw [camel_items hn hc, List.pairwise_map]
    have hp : d.Pairwise (fun a b => a.1 ≠ b.1) := by rwa [List.Nodup, List.pairwise_map] at hn
    refine (hp.filter _).imp_of_mem ?_
    intro a b ha hb hne _ _
    obtain ⟨h1, h2⟩ := List.mem_filter.1 ha
    obtain ⟨h3, h4⟩ := List.mem_filter.1 hb
    rw [(entries_mem hc a h1 (by simpa using h2)).1, (entries_mem hc b h3 (by simpa using h4)).1]
    exact hne

theorem hexText_eq (b : List UInt8) : hex b = hexText b := by
  have hd : ∀ i < 16, Case.hexDigit i = "0123456789abcdef".toList.getD i '?' := by decide +kernel
  have h : ∀ x : UInt8, [Case.hexDigit (x.toNat / 16), Case.hexDigit (x.toNat % 16)] =
      ["0123456789abcdef".toList.getD (x.toNat / 16) '?', "0123456789abcdef".toList.getD (x.toNat % 16) '?'] := by
    intro x
    have := x.toNat_lt
    rw [hd _ (by omega), hd _ (by omega)]
  simp only [hex, hexText, h]

theorem snake_date (n : Int) : toCase snakecase (dateDict n) = dayParts n := by
  have h1 : isPrivate "year" = false := by decide +kernel
  have h2 : isPrivate "month" = false := by decide +kernel
  have h3 : isPrivate "day" = false := by decide +kernel
  have s1 : snakecase "year" = "year" := by decide +kernel
  have s2 : snakecase "month" = "month" := by decide +kernel
  have s3 : snakecase "day" = "day" := by decide +kernel
  obtain ⟨y, m, d⟩ : Int × Int × Int := civil n
  unfold dateDict dayParts
  rcases civil n with ⟨y, m, d⟩
  simp [toCase, toCaseItems, dget, dset, h1, h2, h3, s1, s2, s3]

theorem snake_dateTime (m off : Int) : toCase snakecase (dateTimeDict m off) = dateParts m off := by
  have h1 : isPrivate "year" = false := by decide +kernel
  have h2 : isPrivate "month" = false := by decide +kernel
  have h3 : isPrivate "day" = false := by decide +kernel
  have h4 : isPrivate "hour" = false := by decide +kernel
  have h5 : isPrivate "minute" = false := by decide +kernel
  have h6 : isPrivate "second" = false := by decide +kernel
  have h7 : isPrivate "microsecond" = false := by decide +kernel
  have h8 : isPrivate "timeZoneOffset" = false := by decide +kernel
  have s1 : snakecase "year" = "year" := by decide +kernel
  have s2 : snakecase "month" = "month" := by decide +kernel
  have s3 : snakecase "day" = "day" := by decide +kernel
  have s4 : snakecase "hour" = "hour" := by decide +kernel
  have s5 : snakecase "minute" = "minute" := by decide +kernel
  have s6 : snakecase "second" = "second" := by decide +kernel
  have s7 : snakecase "microsecond" = "microsecond" := by decide +kernel
  have s8 : snakecase "timeZoneOffset" = "time_zone_offset" := by decide +kernel
  unfold dateTimeDict dateParts
  norm_num only [us]
  rcases civil ((m + off) / 86400000000) with ⟨y, mo, d⟩
  simp [toCase, toCaseItems, dget, dset, h1, h2, h3, h4, h5, h6, h7, h8, s1, s2, s3, s4, s5, s6, s7, s8]

mutual
theorem conv_value : ∀ v : Val, Convertible v → toCase snakecase (toCase camelcase v) = plainValue v
  | .dict d, h => by
    rw [Convertible] at h
    obtain ⟨hn, hname, hc⟩ := h
    have hi := snake_items hn hc (conv_entries d hc)
    rw [toCase, plainValue]
    rcases hd : dget d "_name" with _ | x
    · exact hi
    cases x
    case str name =>
      simp only
      by_cases h0 : name = ""
      · rw [if_pos h0, if_pos h0, hi]
      · obtain ⟨h1, h2⟩ := hname name hd h0
        rw [if_neg h0, if_neg h0]
        have hg : dget [(name, Val.dict (toCaseItems camelcase [] d))] "_name" = none :=
          public_name _ (by simp [h2])
        rw [toCase, hg]
        simp only [toCaseItems, h2, h1, hi, dset]
        simp
    all_goals exact hi
  | .list l, h => by rw [Convertible] at h; rw [toCase, toCase, conv_list l h, plainValue]
  | .set l, _ => by
    rw [toCase, toCase, plainValue]
    congr 1
    induction l with
    | nil => rfl
    | cons n l ih => simp [toCaseList, toCase, ih (by simp [Convertible])]
  | .enum c n, _ => by simp [toCase, plainValue]
  | .bytes b, _ => by simp [toCase, plainValue, hexText_eq]
  | .datetime m off, _ => by rw [toCase, plainValue, snake_dateTime]
  | .date n, _ => by rw [toCase, plainValue, snake_date]
  | .timedelta n, _ => by simp [toCase, plainValue]
  | .none, _ => by simp [toCase, plainValue]
  | .bool b, _ => by simp [toCase, plainValue]
  | .int n, _ => by simp [toCase, plainValue]
  | .flt q, _ => by simp [toCase, plainValue]
  | .inf, _ => by simp [toCase, plainValue]
  | .fbits w n, _ => by simp [toCase, plainValue]
  | .str s, _ => by simp [toCase, plainValue]
  | .ipv4 b, _ => by simp [toCase, plainValue]
theorem conv_entries : ∀ d : List (String × Val), ConvertibleEntries d → ∀ kv ∈ d, isPrivate kv.1 = false →
    toCase snakecase (toCase camelcase kv.2) = plainValue kv.2
  | [], _, kv, h, _ => by simp at h
  | (k, v) :: d, hc, kv, h, hp => by
    rw [ConvertibleEntries] at hc
    rcases List.mem_cons.1 h with rfl | h
    · exact conv_value v (hc.1 hp).2
    · exact conv_entries d hc.2 kv h hp
theorem conv_list : ∀ l : List Val, ConvertibleList l → toCaseList snakecase (toCaseList camelcase l) = plainList l
  | [], _ => by simp [toCaseList, plainList]
  | v :: l, h => by rw [ConvertibleList] at h; rw [toCaseList, toCaseList, conv_value v h.1, conv_list l h.2, plainList]
end

/-- **C30 (dictionaries).** Converting the keys to camel case and back keeps the structure and all public keys of a value: it is what it was
but for private entries and the types of its leaves. -/
theorem C30_dict {v : Val} (h : Convertible v) : toSnakecaseDict (toCamelcaseDict v) = plainValue v := conv_value v h

/-- A parsed message: the private entry disappears, the byte string becomes hexadecimal; keys and structure are kept. -/
example : Convertible (.dict [("opcode", .int 2), ("config_appkey_add", .dict [("app_key_index", .int 1), ("_rfu", .none),
    ("app_key", .bytes [0x0A, 0xFF]), ("items", .list [.dict [("_name", .str "motion_sensed"), ("motion", .int 1)]])])]) := by
  have s1 : snakecase (camelcase "opcode") = "opcode" := by decide +kernel
  have s2 : snakecase (camelcase "config_appkey_add") = "config_appkey_add" := by decide +kernel
  have s3 : snakecase (camelcase "app_key_index") = "app_key_index" := by decide +kernel
  have s4 : snakecase (camelcase "app_key") = "app_key" := by decide +kernel
  have s5 : snakecase (camelcase "items") = "items" := by decide +kernel
  have s6 : snakecase (camelcase "motion") = "motion" := by decide +kernel
  have s7 : snakecase "motion_sensed" = "motion_sensed" := by decide +kernel
  have p1 : isPrivate "motion_sensed" = false := by decide +kernel
  have p2 : isPrivate "_name" = true := by decide +kernel
  have p3 : isPrivate "_rfu" = true := by decide +kernel
  simp [Convertible, ConvertibleEntries, ConvertibleList, dget, s1, s2, s3, s4, s5, s6, s7, p1, p2, p3]
example : toCamelcaseDict (.dict [("app_key_index", .int 1), ("_rfu", .none), ("app_key", .bytes [0x0A, 0xFF]),
    ("items", .list [.dict [("_name", .str "motion_sensed"), ("motion", .int 1)]])]) =
    .dict [("appKeyIndex", .int 1), ("appKey", .str "0aff"), ("items", .list [.dict [("motion_sensed", .dict [("motion", .int 1)])]])] := by
  with_unfolding_all rfl

end BM.Props
