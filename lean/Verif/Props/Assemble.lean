import Verif.Lemmas.Assemble
import Verif.Props.Open

/-! # Properties C83–C84: writing a profile file with the library's encoders and opening it -/

namespace Lcms.Props

open Lcms.Spec

/-! ### C83 -/

/-- **C83** A profile file written through the library (header, tag count, directory, data) to a newly created
file, under every schedule of short writes and interrupts, opens again under every schedule, on either host, and
yields the header's fields and exactly those directory lines that lie within the file, in order.  (The date must
exist, the magic number must be right, there must be at most 100 lines; if overflow checks are on no line may end
beyond 4 GiB.) -/
theorem C83_write_then_open (t t' : Target) (env : Handlers) (now : NaiveDateTime) (ws rs : List OsResp)
    (ctx : CState) (fs : FS) (path : Path) (hd : ICCHeader) (es : List TagEntry) (data : List Byte)
    (hc : fs.mayCreate path = none) (hr : fs.mayRead path = none) (hfeat : t.leFeature = t'.leFeature)
    (hm : hd.magic.val = 0x61637370) (hdt : ICCHeader.Dated hd) (hn : es.length ≤ 100)
    (ho : t'.checks = true → ∀ e ∈ es, e.offset.toNat + e.size.toNat < 2 ^ 32)
    (hlen : 132 + 12 * es.length + data.length < min t'.usizeMod 9223372036854775808) :
    ∃ f f', fs.create path ws = .ok f ∧ saveProfile t (OsFile.handler t) hd es data f = .ok () f' ∧
      ∃ p, openFromFileThr t' env now rs ctx (fs.put path f'.data) path .read = (.ok p, ctx, fs.put path f'.data) ∧
        Keeps hd p ∧ p.isWrite = false ∧
        tags p = (es.filter fun e => e.offset.toNat + e.size.toNat ≤
          min hd.size.toNat (132 + 12 * es.length + data.length)).map asListed := by
  have hcr : fs.create path ws = .ok { data := [], pos := 0, readable := false, writable := true, sched := ws } := by
    unfold FS.create; rw [hc]
  obtain ⟨sc, hw⟩ := OsFile.writeChunks_eq t
    (ICCHeader.toBytes t 8 hd :: fileBytes t 4 (UInt32.ofNat es.length).toNat ::
      (es.map (TagEntry.toBytes t) ++ [data]))
    { data := [], pos := 0, readable := false, writable := true, sched := ws } rfl rfl
  rw [← saveProfile_chunks, chunks_layout] at hw
  refine ⟨_, _, hcr, hw, ?_⟩
  simp only [List.nil_append]
  have hlay : layout t hd es data = layout t' hd es data := by
    have hb : ∀ n x, fileBytes t n x = fileBytes t' n x := fun n x => by unfold fileBytes; rw [hfeat]
    have he : TagEntry.toBytes t = TagEntry.toBytes t' := by
      funext e; simp only [tagToBytes_eq, hb]
    unfold layout
    rw [toBytes_eq t 8 (Or.inr rfl), toBytes_eq t' 8 (Or.inr rfl), he]
    simp only [hb]
  rw [hlay]
  have hl := layout_length t' hd es data
  have hv := layout_verdict t' hd es data hm hdt hn ho
  have hh := layout_header t' hd es data
  have hk := layout_kept t' hd es data (by omega) (by omega)
  generalize layout t' hd es data = b at *
  have hop := openRead_eq t' env now rs ctx (fs.put path b) path b (by omega) hr (by simp [FS.put])
  unfold outcome at hop
  rw [hv] at hop
  obtain ⟨⟨d, f, h1, -, -, -, h2⟩, h3⟩ := hop
  refine ⟨goodProfile t' b now d f, ?_, ?_, rfl, ?_⟩
  · rw [← h2, ← h3]
  · rw [hh] at h1
    exact keeps_good t' b now d f hd hh h1 hdt
  · rw [tags_good t' b now d f hv, hk, List.map_map]
    apply List.map_congr_left
    intro e _
    simp only [Function.comp_apply, entryOf, asListed, sigOf_sig]

/-- **C83** in memory: the same calls on an empty growable buffer produce the same bytes. -/
theorem C83_same_in_memory (t : Target) (ws : List OsResp) (hd : ICCHeader) (es : List TagEntry) (data : List Byte)
    (hlen : 132 + 12 * es.length + data.length ≤ t.isizeMax) :
    ∃ f' b, saveProfile t (OsFile.handler t) hd es data ⟨[], 0, false, true, ws⟩ = .ok () f' ∧
      saveProfile t (Mem.vec t) hd es data ⟨[], 0⟩ = .ok () ⟨b, b.length⟩ ∧ f'.data = b ∧
      b.length = 132 + 12 * es.length + data.length := by
  have hl := layout_length t hd es data
  rw [saveProfile_chunks, saveProfile_chunks]
  obtain ⟨sc, hw⟩ := OsFile.writeChunks_eq t
    (ICCHeader.toBytes t 8 hd :: fileBytes t 4 (UInt32.ofNat es.length).toNat ::
      (es.map (TagEntry.toBytes t) ++ [data]))
    { data := [], pos := 0, readable := false, writable := true, sched := ws } rfl rfl
  obtain ⟨s', h1, rfl⟩ := (vec_lawful t).writeChunks
    (ICCHeader.toBytes t 8 hd :: fileBytes t 4 (UInt32.ofNat es.length).toNat ::
      (es.map (TagEntry.toBytes t) ++ [data])) (s := ⟨[], 0⟩) (d := []) (p := 0) rfl
    (by rw [chunks_layout]; omega)
  rw [chunks_layout] at hw h1
  refine ⟨_, layout t hd es data, hw, ?_, rfl, hl⟩
  rw [h1]
  have : SharedFile.written [] 0 (layout t hd es data) = layout t hd es data := by
    unfold SharedFile.written
    split <;> simp_all [patch, zeros]
  rw [this, Nat.zero_add]

/-- A display profile with two tags, of which the second lies outside the file. -/
def smallHeader : ICCHeader :=
  { size := 180, cmmId := ⟨0⟩, version := 0x04200000, deviceClass := ⟨0x6D6E7472⟩, colorSpace := ⟨0x52474220⟩
    pcs := ⟨0x58595A20⟩
    date := { year := 2007, month := 7, day := 25, hours := 0, minutes := 5, seconds := 37 }
    magic := ⟨0x61637370⟩, platform := ⟨0⟩, flags := 1, manufacturer := ⟨7⟩, model := 8, attributes := 9
    renderingIntent := 2, illuminant := ⟨63190, 65536, 54061⟩, creator := ⟨3⟩
    profileId := ⟨Vector.replicate 16 5⟩, reserved := Vector.replicate 28 0 }

/-- It satisfies the hypotheses; the listed tags are the first one only. -/
example : smallHeader.magic.val = 0x61637370 ∧ ICCHeader.Dated smallHeader ∧
    ([⟨⟨0x64657363⟩, 168, 4⟩, ⟨⟨0x77747074⟩, 172, 9⟩] : List TagEntry).filter (fun e => e.offset.toNat + e.size.toNat ≤
      min smallHeader.size.toNat (132 + 12 * 2 + 24)) = [⟨⟨0x64657363⟩, 168, 4⟩] := by
  unfold ICCHeader.Dated
  decide +kernel

/-- What is written, with a schedule of short writes and interrupts. -/
example : (match saveProfile pc (OsFile.handler pc) smallHeader [⟨⟨0x64657363⟩, 168, 4⟩, ⟨⟨0x77747074⟩, 172, 9⟩]
      (zeros 24) ⟨[], 0, false, true, [.chunk 3, .interrupted, .chunk 0]⟩ with
    | .ok () f => some (f.data.length, f.data.take 8, (f.data.drop 128).take 28)
    | _ => none) = some (180, be4 180 ++ be4 0,
      be4 2 ++ be4 0x64657363 ++ be4 168 ++ be4 4 ++ be4 0x77747074 ++ be4 172 ++ be4 9) := by decide +kernel

/-! ### C84 -/

/-- **C84** What a profile remembers of its file: two opened files give equal profiles exactly if they agree on
bytes 8–35, 44–67 and 80–99 of the header (version to date, flags to intent, creator and profile ID) and on the
directory lines within range.  Everything else — declared size, preferred CMM, platform, illuminant, reserved
bytes, tag data — is forgotten. -/
theorem C84_remembered (t : Target) (env env' : Handlers) (now now' : NaiveDateTime) (sched sched' : List OsResp)
    (ctx ctx' : CState) (fs fs' : FS) (path path' : Path) (b b' : List Byte)
    (hlen : b.length < 9223372036854775808) (hlen' : b'.length < 9223372036854775808)
    (hfile : fs.files path = some b) (hfile' : fs'.files path' = some b') (p p' : Profile)
    (h : (openFromFileThr t env now sched ctx fs path .read).1 = .ok p)
    (h' : (openFromFileThr t env' now' sched' ctx' fs' path' .read).1 = .ok p') :
    p.eq p' = true ↔
      at_ b 8 28 = at_ b' 8 28 ∧ at_ b 44 24 = at_ b' 44 24 ∧ at_ b 80 20 = at_ b' 80 20 ∧
        kept t b = kept t b' := by
  obtain ⟨d, f, hv, hd, h1, h2, h3, rfl⟩ := openRead_ok hlen hfile h
  obtain ⟨d', f', hv', hd', h1', h2', h3', rfl⟩ := openRead_ok hlen' hfile' h'
  exact good_eq_iff hv hv' now now' d d' f f' h1 h2 h3 h1' h2' h3' hd hd'

/-- The sample file with another declared size, CMM, platform and illuminant. -/
def forgotten : List Byte :=
  be4 0x7FFFFFFF ++ be4 5 ++ be4 0x04200000 ++ be4 0x6D6E7472 ++ be4 0x52474220 ++ be4 0x58595A20 ++ goodDate ++
    be4 0x61637370 ++ be4 6 ++ zeros 24 ++ be4 1 ++ be4 2 ++ be4 3 ++ zeros 48 ++ goodFile.drop 128

/-- The sample file with a flag bit set. -/
def flagged : List Byte :=
  be4 180 ++ zeros 4 ++ be4 0x04200000 ++ be4 0x6D6E7472 ++ be4 0x52474220 ++ be4 0x58595A20 ++ goodDate ++
    be4 0x61637370 ++ zeros 4 ++ be4 1 ++ zeros 80 ++ goodFile.drop 128

/-- The first gives the same profile as the sample file. -/
example : verdict pc forgotten = .table (kept pc goodFile) ∧ kept pc forgotten = kept pc goodFile ∧
    at_ forgotten 8 28 = at_ goodFile 8 28 ∧ at_ forgotten 44 24 = at_ goodFile 44 24 ∧
    at_ forgotten 80 20 = at_ goodFile 80 20 ∧ forgotten ≠ goodFile := by decide +kernel

/-- The second does not. -/
example : verdict pc flagged = .table [⟨0x64657363, 168, 4⟩, ⟨0x77747074, 172, 8⟩] ∧ num pc flagged 44 4 = 1 ∧
    num pc goodFile 44 4 = 0 := by decide +kernel

end Lcms.Props
