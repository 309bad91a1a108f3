import Verif.Sndcp.XidLemmas
/-!
# C46: SNDCP XID fields survive coding and decoding

`Spec.SndcpXid` describes compression proposals, the values TS 44.065 allows and their coding;
`toField` is the structure in memory that stands for a proposal (`struct gprs_sndcp_comp_field`).
-/
namespace Verif.Props
open Verif Verif.Sndcp Verif.Spec.SndcpXid

/-- The list the user of the coder builds: every field is put at the head, so the field to be sent
first is last (`llist_add`). -/
def inMemory (xs : List Proposal) : List CompField := (xs.map toField).reverse

/-- The version argument: negative for "none". -/
def versionArg : Option Nat → Int
  | some v => Int.ofNat v
  | none => -1

/-- The proposals of header compression, and the others. -/
def headerOnly (xs : List Proposal) : List Proposal := xs.filter (fun x => x.alg.isHeader)
def dataOnly (xs : List Proposal) : List Proposal := xs.filter (fun x => !x.alg.isHeader)

/-- What a sender may ask for: legal proposals, a version of one octet, something to send at all, and
not more than fits behind the length octet of the two parameters. -/
structure Sendable (version : Option Nat) (xs : List Proposal) : Prop where
  legal : ∀ x ∈ xs, x.Legal
  octet : ∀ v, version = some v → v ≤ 255
  something : version ≠ none ∨ xs ≠ []
  headers : (fieldBytes (headerOnly xs)).length ≤ 255
  datas : (fieldBytes (dataOnly xs)).length ≤ 255

/-- C46 in full: what is sent is the standard's coding, and reading it gives the version and the same
fields, header compression first. -/
def C46Statement : Prop :=
  ∀ (version : Option Nat) (xs : List Proposal), Sendable version xs →
    ∃ bytes, compileXid 1024 (inMemory xs) (versionArg version) = .ok (bytes, bytes.length) ∧
      bytes = xidBlock version xs ∧
      parseXid true bytes none =
        .ok (versionArg version, inMemory (headerOnly xs) ++ inMemory (dataOnly xs))

theorem filter_header (xs : List Proposal) :
    xs.filter (fun x => algCls x.alg = .proto) = headerOnly xs := by
  unfold headerOnly
  congr 1
  funext x
  unfold algCls
  cases x.alg.isHeader <;> rfl

theorem filter_data (xs : List Proposal) :
    xs.filter (fun x => algCls x.alg = .data) = dataOnly xs := by
  unfold dataOnly
  congr 1
  funext x
  unfold algCls
  cases x.alg.isHeader <;> rfl

/-- What is sent is the standard's coding of the proposals, for all legal proposals.  (This half of
C46 holds in full.) -/
theorem c46_coding (version : Option Nat) (xs : List Proposal) (room : Nat)
    (h : Sendable version xs) (hroom : 3 ≤ room) (hfit : (xidBlock version xs).length ≤ room) :
    compileXid room (inMemory xs) (versionArg version) =
      .ok (xidBlock version xs, (xidBlock version xs).length) := by
  have hv : (if 0 ≤ versionArg version then
      tlvPut 0 [UInt8.ofNat ((versionArg version).toNat % 256)] else []) =
      versionBytes version := by
    cases version with
    | none => rfl
    | some v =>
      have := h.octet v rfl
      have h0 : 0 ≤ versionArg (some v) := Int.natCast_nonneg v
      have h1 : (versionArg (some v)).toNat = v := rfl
      rw [if_pos h0, h1, Nat.mod_eq_of_lt (by omega)]
      rfl
  have henc : ∀ i ∈ xs.map sentItem, Encodes i := by
    intro i hi
    obtain ⟨x, hx, rfl⟩ := List.mem_map.mp hi
    exact sentItem_encodes x (h.legal x hx)
  have hmem : itemsBack (xs.map sentItem) = inMemory xs := by
    rw [itemsBack, inMemory, List.map_map]
    rfl
  have hd := compileClass_ok .data (xs.map sentItem) henc
    (by rw [ofClass_sent, itemBytes_sent, filter_data]; exact h.datas)
  have hp := compileClass_ok .proto (xs.map sentItem) henc
    (by rw [ofClass_sent, itemBytes_sent, filter_header]; exact h.headers)
  rw [ofClass_sent, itemBytes_sent, filter_data, hmem] at hd
  rw [ofClass_sent, itemBytes_sent, filter_header, hmem] at hp
  rw [compileXid, if_neg (by omega)]
  simp only [hv]
  by_cases hx : xs = []
  · subst hx
    rw [if_pos (show inMemory [] = [] from rfl)]
    simp [xidBlock, fieldBytes, parameter]
  · rw [if_neg (by simp [inMemory, hx])]
    rw [hd, Res.bind_ok]
    simp only
    rw [hp, Res.bind_ok]
    simp only
    have hb : xidBlock version xs =
        versionBytes version ++
          parameter CClass.data.tag (fieldBytes (dataOnly xs)) ++
          parameter CClass.proto.tag (fieldBytes (headerOnly xs)) := rfl
    rw [← hb, if_neg (by omega)]
    congr 2
    rw [hb, List.length_append, List.length_append]

/-- Reading the standard's coding of legal proposals with the dictionary sizes of V.44 at least 265:
everything comes back except that the profiles of ROHC only come back if there are sixteen.  (`w`: the
version is asked for.) -/
theorem c46_decoding (w : Bool) (version : Option Nat) (xs : List Proposal)
    (h : Sendable version xs) (hdec : ∀ x ∈ xs, Decodable x.alg) :
    parseXid w (xidBlock version xs) none =
      .ok (if w then versionArg version else -1,
        readBack (headerOnly xs) ++ readBack (dataOnly xs)) := by
  have hds : OneClass none .data ((dataOnly xs).map readItem) := by
    refine ⟨fun i hi => ?_, by rw [itemBytes_read]; exact h.datas⟩
    obtain ⟨x, hx, rfl⟩ := List.mem_map.mp hi
    obtain ⟨hm, hc⟩ := List.mem_filter.mp hx
    have hr := readItem_decodes none x (h.legal x hm) (hdec x hm)
    suffices hcl : algCls x.alg = .data by rwa [hcl] at hr
    unfold algCls
    cases hh : x.alg.isHeader
    · rfl
    · rw [hh] at hc; cases hc
  have hps : OneClass none .proto ((headerOnly xs).map readItem) := by
    refine ⟨fun i hi => ?_, by rw [itemBytes_read]; exact h.headers⟩
    obtain ⟨x, hx, rfl⟩ := List.mem_map.mp hi
    obtain ⟨hm, hc⟩ := List.mem_filter.mp hx
    have hr := readItem_decodes none x (h.legal x hm) (hdec x hm)
    suffices hcl : algCls x.alg = .proto by rwa [hcl] at hr
    unfold algCls
    rw [hc]
    rfl
  have hsome : version ≠ none ∨ (dataOnly xs).map readItem ≠ [] ∨ (headerOnly xs).map readItem ≠ [] := by
    rcases h.something with h0 | h0
    · exact .inl h0
    · right
      cases xs with
      | nil => exact absurd rfl h0
      | cons x t =>
        cases hh : x.alg.isHeader
        · exact .inl (by simp [dataOnly, hh])
        · exact .inr (by simp [headerOnly, hh])
  obtain ⟨h1, h2⟩ := decodeXid_block (w := w) hds hps h.octet hsome (b := xidBlock version xs)
    (by rw [itemBytes_read, itemBytes_read]; rfl)
  rw [itemsBack_read, itemsBack_read] at h2
  rw [parseXid, if_neg h1, h2]
  cases w <;> cases version <;> rfl

theorem block_length (version : Option Nat) (xs : List Proposal) (h : Sendable version xs) :
    (xidBlock version xs).length ≤ 1024 := by
  have hp : ∀ (t : Nat) (o : Octets), (parameter t o).length ≤ o.length + 2 := by
    intro t o
    unfold parameter
    split
    · simp
    · simp
  have h1 := hp 1 (fieldBytes (dataOnly xs))
  have h2 := hp 2 (fieldBytes (headerOnly xs))
  have h3 := h.datas
  have h4 := h.headers
  have h5 : (versionBytes version).length ≤ 3 := by
    cases version with
    | none => exact Nat.zero_le 3
    | some v => exact hp 0 (one v)
  have hb : (xidBlock version xs).length = (versionBytes version).length +
      (parameter 1 (fieldBytes (dataOnly xs))).length +
      (parameter 2 (fieldBytes (headerOnly xs))).length := by
    rw [← List.length_append, ← List.length_append]
    rfl
  omega

/-- The proposals that survive: V.44 dictionaries of at least 265 code words, ROHC without profiles
or with all sixteen. -/
def Survives : Alg → Prop
  | .v44 _ _ c d _ _ => 265 ≤ c ∧ 265 ≤ d
  | .rohc _ _ ps => ps.length = 0 ∨ ps.length = 16
  | _ => True

theorem survives_decodable {a : Alg} (h : Survives a) : Decodable a := by
  cases a with
  | v44 a b c d e f => exact h
  | _ => trivial

theorem survives_kept {x : Proposal} (h : Survives x.alg) :
    toFieldP x (keptProfiles x.alg) = toField x := by
  have hk : keptProfiles x.alg = algProfiles x.alg := by
    cases hh : x.alg with
    | rohc a b ps =>
      rw [hh] at h
      rcases h with h0 | h0
      · simp [keptProfiles, algProfiles, List.eq_nil_of_length_eq_zero h0]
      · simp [keptProfiles, algProfiles, h0]
    | _ => rfl
  rw [toFieldP, hk]
  rfl

theorem readBack_survives {xs : List Proposal} (h : ∀ x ∈ xs, Survives x.alg) :
    readBack xs = inMemory xs := by
  unfold readBack inMemory
  congr 1
  exact List.map_congr_left (fun y hm => survives_kept (h y hm))

/-- C46 for those proposals.  Missing: V.44 with dictionaries of 256 to 264 code words and ROHC with
one to fifteen profiles, for which it does not hold (below). -/
theorem c46_roundtrip_partial (version : Option Nat) (xs : List Proposal)
    (h : Sendable version xs) (hs : ∀ x ∈ xs, Survives x.alg) :
    ∃ bytes, compileXid 1024 (inMemory xs) (versionArg version) = .ok (bytes, bytes.length) ∧
      bytes = xidBlock version xs ∧
      parseXid true bytes none =
        .ok (versionArg version, inMemory (headerOnly xs) ++ inMemory (dataOnly xs)) := by
  refine ⟨xidBlock version xs, c46_coding version xs 1024 h (by omega) (block_length version xs h),
    rfl, ?_⟩
  rw [c46_decoding true version xs h (fun x hx => survives_decodable (hs x hx)),
    readBack_survives (xs := headerOnly xs) (fun y hy => hs y (List.mem_filter.mp hy).1),
    readBack_survives (xs := dataOnly xs) (fun y hy => hs y (List.mem_filter.mp hy).1)]
  rfl

/-- A TCP/IP header compression and a V.42bis entity, as an SGSN would propose them. -/
def egHeader : Proposal :=
  { entity := 0, comps := [1, 2], applies := fun n => n = 5 || n = 6, alg := .rfc1144 7 }
def egData : Proposal :=
  { entity := 1, comps := [1], applies := fun n => n = 5, alg := .v42bis 1 2048 20 }

theorem legalHeader : egHeader.Legal :=
  ⟨by decide, rfl, by decide, by show (7 : Nat) ≤ 255; decide⟩

theorem legalData : egData.Legal :=
  ⟨by decide, rfl, by decide, by refine ⟨?_, ⟨?_, ?_⟩, ?_, ?_⟩ <;> decide⟩

theorem legalBoth : ∀ x ∈ [egHeader, egData], x.Legal := by
  intro x hx
  rcases List.mem_cons.mp hx with hx | hx
  · subst hx; exact legalHeader
  · rw [List.mem_singleton.mp hx]; exact legalData

example : Sendable (some 0) [egHeader, egData] ∧
    (∀ x ∈ [egHeader, egData], Survives x.alg) ∧
    xidBlock (some 0) [egHeader, egData] =
      [0, 1, 0, 1, 10, 0x81, 0, 7, 0x10, 0, 0x20, 1, 8, 0, 20, 2, 7, 0x80, 0, 4, 0x12, 0, 0x60, 7] := by
  refine ⟨⟨legalBoth, ?_, .inl (by simp), by decide, by decide⟩, ?_, by decide⟩
  · intro v hv
    cases hv
    decide
  · intro x hx
    rcases List.mem_cons.mp hx with hx | hx
    · subst hx; trivial
    · rw [List.mem_singleton.mp hx]; trivial

/-- A ROHC proposal with one profile. -/
def egRohc : Proposal :=
  { entity := 2, comps := [3, 4], applies := fun n => n = 5, alg := .rohc 15 168 [1] }

/-- A V.44 proposal with the smallest dictionaries the standard allows. -/
def egV44 : Proposal :=
  { entity := 3, comps := [2, 3], applies := fun n => n = 5, alg := .v44 192 3 256 256 512 512 }

/-- With one to fifteen profiles, a ROHC proposal loses all of them, whatever else is in it. -/
theorem c46_rohc_violated (x : Proposal) (cid hdr : Nat) (ps : List Nat) (hx : x.Legal)
    (ha : x.alg = .rohc cid hdr ps) (hps : ps ≠ []) (h16 : ps.length < 16) :
    parseXid true (xidBlock none [x]) none = .ok (-1, [toFieldP x []]) ∧
      toFieldP x [] ≠ toField x := by
  have hh : x.alg.isHeader = true := by rw [ha]; rfl
  have hho : headerOnly [x] = [x] := by simp [headerOnly, hh]
  have hdo : dataOnly [x] = [] := by simp [dataOnly, hh]
  have hfb : (fieldBytes [x]).length ≤ 255 := by
    obtain ⟨h1, h2⟩ := body_length x hx
    have h3 := alg_bytes_le hx.2.2.2
    have h4 := compCount_le x.alg
    have h5 := hx.2.1
    rw [fieldBytes_cons, List.length_append, bytes_length]
    have : (fieldBytes []).length = 0 := rfl
    omega
  have hsend : Sendable none [x] := by
    refine ⟨?_, by simp, .inr (by simp), by rw [hho]; exact hfb, by rw [hdo]; decide⟩
    intro y hy
    rw [List.mem_singleton.mp hy]
    exact hx
  have hk : keptProfiles x.alg = [] := by
    rw [ha, keptProfiles, algProfiles, if_neg (by omega)]
  constructor
  · rw [c46_decoding true none [x] hsend (by
      intro y hy
      rw [List.mem_singleton.mp hy, ha]
      trivial), hho, hdo]
    simp [readBack, hk, versionArg]
  · intro he
    have := congrArg (fun f : CompField => f.params.map (·.profiles)) he
    simp only [toFieldP, toField, Option.map_some, Option.some.injEq, ha, algProfiles] at this
    exact hps this.symm

example : egRohc.Legal ∧ egRohc.alg = .rohc 15 168 [1] ∧ [1] ≠ ([] : List Nat) := by
  refine ⟨⟨by decide, rfl, by decide, by decide, ⟨by decide, by decide⟩, by decide, by decide⟩, rfl,
    by decide⟩

/-- A legal V.44 proposal with dictionaries of 256 code words is not understood by the same
implementation: its parameters come back as if not given, and the rest of it is taken for further
fields. -/
theorem c46_v44_violated :
    egV44.Legal ∧ compileXid 1024 [toField egV44] (-1) =
      .ok (xidBlock none [egV44], (xidBlock none [egV44]).length) ∧
    ¬ ∃ v, parseXid true (xidBlock none [egV44]) none = .ok (v, [toField egV44]) := by
  refine ⟨⟨by decide, rfl, by decide, ?_⟩, by decide +kernel, ?_⟩
  · refine ⟨.inr rfl, ?_, ⟨?_, ?_⟩, ⟨?_, ?_⟩, ⟨?_, ?_⟩, ?_, ?_⟩ <;> decide
  · rintro ⟨v, hv⟩
    have hr : parseXid true (xidBlock none [egV44]) none ≠ .ok (-1, [toField egV44]) ∧
        (match parseXid true (xidBlock none [egV44]) none with
          | .ok (v, _) => decide (v = -1)
          | _ => true) = true := by
      decide +kernel
    rw [hv] at hr
    have h2 : v = -1 := by simpa using hr.2
    exact hr.1 (by rw [h2])

/-- C46 in full does not hold of the code. -/
theorem c46_statement_violated : ¬ C46Statement := by
  intro h
  have hx : egRohc.Legal :=
    ⟨by decide, rfl, by decide, by decide, ⟨by decide, by decide⟩, by decide, by decide⟩
  obtain ⟨bytes, _, hb, hp⟩ := h none [egRohc] ⟨by
    intro y hy
    rw [List.mem_singleton.mp hy]
    exact hx, by simp, .inr (by simp), by decide, by decide⟩
  obtain ⟨h1, h2⟩ := c46_rohc_violated egRohc 15 168 [1] hx rfl (by decide) (by decide)
  rw [hb, h1] at hp
  injection hp with hp
  injection hp with _ hp
  have : inMemory (headerOnly [egRohc]) ++ inMemory (dataOnly [egRohc]) = [toField egRohc] := rfl
  rw [this] at hp
  injection hp with hp _
  exact h2 hp

end Verif.Props
