import Verif.Proof.AttrRange

/-!
# What every attribute reads

One lemma per attribute type, all of the same shape.
-/

namespace Verif.Attr

open Verif.Spec.Attr
open Verif.Range (Bounds RangeOption)

variable {τ α κ : Type} [DecidableEq κ]

theorem distinctA_base : Distinct [("padding", Key.padding), ("serde", Key.serde), ("rocket", Key.rocket)] := ⟨by simp, by simp⟩

theorem base_iff (E : Env τ α κ) (m : Meta τ) (a : BaseAttribute) :
    baseAttribute E m = .ok a ↔ ∃ ps, Gives E.syn m ps ∧
      WellFormed ["padding", "serde", "rocket"] ps ∧
      Set ps "padding" (SaysTri E.syn) .allow a.padding ∧
      Set ps "serde" (SaysFlags E.syn E.serde "Serialize" "Deserialize") ⟨true, true⟩ a.serde ∧
      Set ps "rocket" (SaysFlags E.syn E.rocket "FromFormField" "FromParam") ⟨true, true⟩ a.rocket := by
  simp only [baseAttribute, map_ok_iff, params_ok]
  constructor
  · rintro ⟨s, ⟨ps, hg, hr⟩, rfl⟩
    obtain ⟨hw, hs⟩ := run_names_ok (table E [("padding", Key.padding), ("serde", Key.serde), ("rocket", Key.rocket)]) [("padding", Key.padding), ("serde", Key.serde), ("rocket", Key.rocket)] (fun _ => rfl) distinctA_base ps s hr
    refine ⟨ps, hg, hw, ?_, ?_, ?_⟩
    · exact (set_iff ..).2 ⟨s .padding, (setOpt_congr fun p v => metaTriAllow_ok E.syn p v).1 (hs "padding" .padding (by simp)), rfl⟩
    · exact (set_iff ..).2 ⟨s .serde, (setOpt_congr fun p v => metaFlags_ok E.syn E.serde "Serialize" "Deserialize" (by simp) p v).1 (hs "serde" .serde (by simp)), rfl⟩
    · exact (set_iff ..).2 ⟨s .rocket, (setOpt_congr fun p v => metaFlags_ok E.syn E.rocket "FromFormField" "FromParam" (by simp) p v).1 (hs "rocket" .rocket (by simp)), rfl⟩
  · rintro ⟨ps, hg, hw, h0, h1, h2⟩
    obtain ⟨o0, h0, e0⟩ := (set_iff ..).1 h0
    obtain ⟨o1, h1, e1⟩ := (set_iff ..).1 h1
    obtain ⟨o2, h2, e2⟩ := (set_iff ..).1 h2
    obtain ⟨s, hs, he⟩ := run_names_of (table E [("padding", Key.padding), ("serde", Key.serde), ("rocket", Key.rocket)]) [("padding", Key.padding), ("serde", Key.serde), ("rocket", Key.rocket)] (fun _ => rfl) distinctA_base ps hw
      (fun | .padding => o0 | .serde => o1 | .rocket => o2 | _ => none) (by
        intro n k hm
        simp only [List.mem_cons, Prod.mk.injEq, List.not_mem_nil, or_false] at hm
        rcases hm with ⟨rfl, rfl⟩ | ⟨rfl, rfl⟩ | ⟨rfl, rfl⟩
        · exact (setOpt_congr fun p v => metaTriAllow_ok E.syn p v).2 h0
        · exact (setOpt_congr fun p v => metaFlags_ok E.syn E.serde "Serialize" "Deserialize" (by simp) p v).2 h1
        · exact (setOpt_congr fun p v => metaFlags_ok E.syn E.rocket "FromFormField" "FromParam" (by simp) p v).2 h2)
    have f0 : s .padding = o0 := he "padding" .padding (by simp)
    have f1 : s .serde = o1 := he "serde" .serde (by simp)
    have f2 : s .rocket = o2 := he "rocket" .rocket (by simp)
    refine ⟨s, ⟨ps, hg, hs⟩, ?_⟩
    cases a
    rw [f0, f1, f2]
    congr 1 <;> symm <;> assumption

theorem distinctA_basic : Distinct [("serde", Key.serde), ("rocket", Key.rocket)] := ⟨by simp, by simp⟩

theorem basic_iff (E : Env τ α κ) (m : Meta τ) (a : BasicAttribute) :
    basicAttribute E m = .ok a ↔ ∃ ps, Gives E.syn m ps ∧
      WellFormed ["serde", "rocket"] ps ∧
      Set ps "serde" (SaysFlags E.syn E.serde "Serialize" "Deserialize") ⟨true, true⟩ a.serde ∧
      Set ps "rocket" (SaysFlags E.syn E.rocket "FromFormField" "FromParam") ⟨true, true⟩ a.rocket := by
  simp only [basicAttribute, map_ok_iff, params_ok]
  constructor
  · rintro ⟨s, ⟨ps, hg, hr⟩, rfl⟩
    obtain ⟨hw, hs⟩ := run_names_ok (table E [("serde", Key.serde), ("rocket", Key.rocket)]) [("serde", Key.serde), ("rocket", Key.rocket)] (fun _ => rfl) distinctA_basic ps s hr
    refine ⟨ps, hg, hw, ?_, ?_⟩
    · exact (set_iff ..).2 ⟨s .serde, (setOpt_congr fun p v => metaFlags_ok E.syn E.serde "Serialize" "Deserialize" (by simp) p v).1 (hs "serde" .serde (by simp)), rfl⟩
    · exact (set_iff ..).2 ⟨s .rocket, (setOpt_congr fun p v => metaFlags_ok E.syn E.rocket "FromFormField" "FromParam" (by simp) p v).1 (hs "rocket" .rocket (by simp)), rfl⟩
  · rintro ⟨ps, hg, hw, h0, h1⟩
    obtain ⟨o0, h0, e0⟩ := (set_iff ..).1 h0
    obtain ⟨o1, h1, e1⟩ := (set_iff ..).1 h1
    obtain ⟨s, hs, he⟩ := run_names_of (table E [("serde", Key.serde), ("rocket", Key.rocket)]) [("serde", Key.serde), ("rocket", Key.rocket)] (fun _ => rfl) distinctA_basic ps hw
      (fun | .serde => o0 | .rocket => o1 | _ => none) (by
        intro n k hm
        simp only [List.mem_cons, Prod.mk.injEq, List.not_mem_nil, or_false] at hm
        rcases hm with ⟨rfl, rfl⟩ | ⟨rfl, rfl⟩
        · exact (setOpt_congr fun p v => metaFlags_ok E.syn E.serde "Serialize" "Deserialize" (by simp) p v).2 h0
        · exact (setOpt_congr fun p v => metaFlags_ok E.syn E.rocket "FromFormField" "FromParam" (by simp) p v).2 h1)
    have f0 : s .serde = o0 := he "serde" .serde (by simp)
    have f1 : s .rocket = o1 := he "rocket" .rocket (by simp)
    refine ⟨s, ⟨ps, hg, hs⟩, ?_⟩
    cases a
    rw [f0, f1]
    congr 1 <;> symm <;> assumption

theorem distinctA_url : Distinct [("local", Key.loc), ("serde", Key.serde), ("rocket", Key.rocket)] := ⟨by simp, by simp⟩

theorem url_iff (E : Env τ α κ) (m : Meta τ) (a : UrlAttribute) :
    urlAttribute E m = .ok a ↔ ∃ ps, Gives E.syn m ps ∧
      WellFormed ["local", "serde", "rocket"] ps ∧
      Set ps "local" (SaysTri E.syn) .allow a.loc ∧
      Set ps "serde" (SaysFlags E.syn E.serde "Serialize" "Deserialize") ⟨true, true⟩ a.serde ∧
      Set ps "rocket" (SaysFlags E.syn E.rocket "FromFormField" "FromParam") ⟨true, true⟩ a.rocket := by
  simp only [urlAttribute, map_ok_iff, params_ok]
  constructor
  · rintro ⟨s, ⟨ps, hg, hr⟩, rfl⟩
    obtain ⟨hw, hs⟩ := run_names_ok (table E [("local", Key.loc), ("serde", Key.serde), ("rocket", Key.rocket)]) [("local", Key.loc), ("serde", Key.serde), ("rocket", Key.rocket)] (fun _ => rfl) distinctA_url ps s hr
    refine ⟨ps, hg, hw, ?_, ?_, ?_⟩
    · exact (set_iff ..).2 ⟨s .loc, (setOpt_congr fun p v => metaTriAllow_ok E.syn p v).1 (hs "local" .loc (by simp)), rfl⟩
    · exact (set_iff ..).2 ⟨s .serde, (setOpt_congr fun p v => metaFlags_ok E.syn E.serde "Serialize" "Deserialize" (by simp) p v).1 (hs "serde" .serde (by simp)), rfl⟩
    · exact (set_iff ..).2 ⟨s .rocket, (setOpt_congr fun p v => metaFlags_ok E.syn E.rocket "FromFormField" "FromParam" (by simp) p v).1 (hs "rocket" .rocket (by simp)), rfl⟩
  · rintro ⟨ps, hg, hw, h0, h1, h2⟩
    obtain ⟨o0, h0, e0⟩ := (set_iff ..).1 h0
    obtain ⟨o1, h1, e1⟩ := (set_iff ..).1 h1
    obtain ⟨o2, h2, e2⟩ := (set_iff ..).1 h2
    obtain ⟨s, hs, he⟩ := run_names_of (table E [("local", Key.loc), ("serde", Key.serde), ("rocket", Key.rocket)]) [("local", Key.loc), ("serde", Key.serde), ("rocket", Key.rocket)] (fun _ => rfl) distinctA_url ps hw
      (fun | .loc => o0 | .serde => o1 | .rocket => o2 | _ => none) (by
        intro n k hm
        simp only [List.mem_cons, Prod.mk.injEq, List.not_mem_nil, or_false] at hm
        rcases hm with ⟨rfl, rfl⟩ | ⟨rfl, rfl⟩ | ⟨rfl, rfl⟩
        · exact (setOpt_congr fun p v => metaTriAllow_ok E.syn p v).2 h0
        · exact (setOpt_congr fun p v => metaFlags_ok E.syn E.serde "Serialize" "Deserialize" (by simp) p v).2 h1
        · exact (setOpt_congr fun p v => metaFlags_ok E.syn E.rocket "FromFormField" "FromParam" (by simp) p v).2 h2)
    have f0 : s .loc = o0 := he "local" .loc (by simp)
    have f1 : s .serde = o1 := he "serde" .serde (by simp)
    have f2 : s .rocket = o2 := he "rocket" .rocket (by simp)
    refine ⟨s, ⟨ps, hg, hs⟩, ?_⟩
    cases a
    rw [f0, f1, f2]
    congr 1 <;> symm <;> assumption

theorem distinctA_ip : Distinct [("local", Key.loc), ("port", Key.port), ("serde", Key.serde), ("rocket", Key.rocket)] := ⟨by simp, by simp⟩

theorem ip_iff (E : Env τ α κ) (m : Meta τ) (a : IpAttribute) :
    ipAttribute E m = .ok a ↔ ∃ ps, Gives E.syn m ps ∧
      WellFormed ["local", "port", "serde", "rocket"] ps ∧
      Set ps "local" (SaysTri E.syn) .allow a.loc ∧
      Set ps "port" (SaysTri E.syn) .allow a.port ∧
      Set ps "serde" (SaysFlags E.syn E.serde "Serialize" "Deserialize") ⟨true, true⟩ a.serde ∧
      Set ps "rocket" (SaysFlags E.syn E.rocket "FromFormField" "FromParam") ⟨true, true⟩ a.rocket := by
  simp only [ipAttribute, map_ok_iff, params_ok]
  constructor
  · rintro ⟨s, ⟨ps, hg, hr⟩, rfl⟩
    obtain ⟨hw, hs⟩ := run_names_ok (table E [("local", Key.loc), ("port", Key.port), ("serde", Key.serde), ("rocket", Key.rocket)]) [("local", Key.loc), ("port", Key.port), ("serde", Key.serde), ("rocket", Key.rocket)] (fun _ => rfl) distinctA_ip ps s hr
    refine ⟨ps, hg, hw, ?_, ?_, ?_, ?_⟩
    · exact (set_iff ..).2 ⟨s .loc, (setOpt_congr fun p v => metaTriAllow_ok E.syn p v).1 (hs "local" .loc (by simp)), rfl⟩
    · exact (set_iff ..).2 ⟨s .port, (setOpt_congr fun p v => metaTriAllow_ok E.syn p v).1 (hs "port" .port (by simp)), rfl⟩
    · exact (set_iff ..).2 ⟨s .serde, (setOpt_congr fun p v => metaFlags_ok E.syn E.serde "Serialize" "Deserialize" (by simp) p v).1 (hs "serde" .serde (by simp)), rfl⟩
    · exact (set_iff ..).2 ⟨s .rocket, (setOpt_congr fun p v => metaFlags_ok E.syn E.rocket "FromFormField" "FromParam" (by simp) p v).1 (hs "rocket" .rocket (by simp)), rfl⟩
  · rintro ⟨ps, hg, hw, h0, h1, h2, h3⟩
    obtain ⟨o0, h0, e0⟩ := (set_iff ..).1 h0
    obtain ⟨o1, h1, e1⟩ := (set_iff ..).1 h1
    obtain ⟨o2, h2, e2⟩ := (set_iff ..).1 h2
    obtain ⟨o3, h3, e3⟩ := (set_iff ..).1 h3
    obtain ⟨s, hs, he⟩ := run_names_of (table E [("local", Key.loc), ("port", Key.port), ("serde", Key.serde), ("rocket", Key.rocket)]) [("local", Key.loc), ("port", Key.port), ("serde", Key.serde), ("rocket", Key.rocket)] (fun _ => rfl) distinctA_ip ps hw
      (fun | .loc => o0 | .port => o1 | .serde => o2 | .rocket => o3 | _ => none) (by
        intro n k hm
        simp only [List.mem_cons, Prod.mk.injEq, List.not_mem_nil, or_false] at hm
        rcases hm with ⟨rfl, rfl⟩ | ⟨rfl, rfl⟩ | ⟨rfl, rfl⟩ | ⟨rfl, rfl⟩
        · exact (setOpt_congr fun p v => metaTriAllow_ok E.syn p v).2 h0
        · exact (setOpt_congr fun p v => metaTriAllow_ok E.syn p v).2 h1
        · exact (setOpt_congr fun p v => metaFlags_ok E.syn E.serde "Serialize" "Deserialize" (by simp) p v).2 h2
        · exact (setOpt_congr fun p v => metaFlags_ok E.syn E.rocket "FromFormField" "FromParam" (by simp) p v).2 h3)
    have f0 : s .loc = o0 := he "local" .loc (by simp)
    have f1 : s .port = o1 := he "port" .port (by simp)
    have f2 : s .serde = o2 := he "serde" .serde (by simp)
    have f3 : s .rocket = o3 := he "rocket" .rocket (by simp)
    refine ⟨s, ⟨ps, hg, hs⟩, ?_⟩
    cases a
    rw [f0, f1, f2, f3]
    congr 1 <;> symm <;> assumption

theorem distinctA_range : Distinct [("range", Key.range), ("serde", Key.serde), ("rocket", Key.rocket)] := ⟨by simp, by simp⟩

theorem range_iff (E : Env τ α κ) (m : Meta τ) (a : RangeAttribute α) :
    rangeAttribute E m = .ok a ↔ ∃ ps, Gives E.syn m ps ∧
      WellFormed ["range", "serde", "rocket"] ps ∧
      Set ps "range" (SaysFinite E.syn E.full E.num) .unlimited a.range ∧
      Set ps "serde" (SaysFlags E.syn E.serde "Serialize" "Deserialize") ⟨true, true⟩ a.serde ∧
      Set ps "rocket" (SaysFlags E.syn E.rocket "FromFormField" "FromParam") ⟨true, true⟩ a.rocket := by
  simp only [rangeAttribute, map_ok_iff, params_ok]
  constructor
  · rintro ⟨s, ⟨ps, hg, hr⟩, rfl⟩
    obtain ⟨hw, hs⟩ := run_names_ok (table E [("range", Key.range), ("serde", Key.serde), ("rocket", Key.rocket)]) [("range", Key.range), ("serde", Key.serde), ("rocket", Key.rocket)] (fun _ => rfl) distinctA_range ps s hr
    refine ⟨ps, hg, hw, ?_, ?_, ?_⟩
    · exact (set_iff ..).2 ⟨s .range, (setOpt_congr fun p v => readRange_ok E p v).1 (hs "range" .range (by simp)), rfl⟩
    · exact (set_iff ..).2 ⟨s .serde, (setOpt_congr fun p v => metaFlags_ok E.syn E.serde "Serialize" "Deserialize" (by simp) p v).1 (hs "serde" .serde (by simp)), rfl⟩
    · exact (set_iff ..).2 ⟨s .rocket, (setOpt_congr fun p v => metaFlags_ok E.syn E.rocket "FromFormField" "FromParam" (by simp) p v).1 (hs "rocket" .rocket (by simp)), rfl⟩
  · rintro ⟨ps, hg, hw, h0, h1, h2⟩
    obtain ⟨o0, h0, e0⟩ := (set_iff ..).1 h0
    obtain ⟨o1, h1, e1⟩ := (set_iff ..).1 h1
    obtain ⟨o2, h2, e2⟩ := (set_iff ..).1 h2
    obtain ⟨s, hs, he⟩ := run_names_of (table E [("range", Key.range), ("serde", Key.serde), ("rocket", Key.rocket)]) [("range", Key.range), ("serde", Key.serde), ("rocket", Key.rocket)] (fun _ => rfl) distinctA_range ps hw
      (fun | .range => o0 | .serde => o1 | .rocket => o2 | _ => none) (by
        intro n k hm
        simp only [List.mem_cons, Prod.mk.injEq, List.not_mem_nil, or_false] at hm
        rcases hm with ⟨rfl, rfl⟩ | ⟨rfl, rfl⟩ | ⟨rfl, rfl⟩
        · exact (setOpt_congr fun p v => readRange_ok E p v).2 h0
        · exact (setOpt_congr fun p v => metaFlags_ok E.syn E.serde "Serialize" "Deserialize" (by simp) p v).2 h1
        · exact (setOpt_congr fun p v => metaFlags_ok E.syn E.rocket "FromFormField" "FromParam" (by simp) p v).2 h2)
    have f0 : s .range = o0 := he "range" .range (by simp)
    have f1 : s .serde = o1 := he "serde" .serde (by simp)
    have f2 : s .rocket = o2 := he "rocket" .rocket (by simp)
    refine ⟨s, ⟨ps, hg, hs⟩, ?_⟩
    cases a
    rw [f0, f1, f2]
    congr 1 <;> symm <;> assumption

theorem distinctA_bit : Distinct [("range", Key.bounds), ("serde", Key.serde), ("rocket", Key.rocket)] := ⟨by simp, by simp⟩

theorem bit_iff (E : Env τ α κ) (m : Meta τ) (a : BitAttribute α) :
    bitAttribute E m = .ok a ↔ ∃ ps, Gives E.syn m ps ∧
      WellFormed ["range", "serde", "rocket"] ps ∧
      Set ps "range" (SaysRange E.syn E.full E.num) ⟨none, none, false⟩ a.range ∧
      Set ps "serde" (SaysFlags E.syn E.serde "Serialize" "Deserialize") ⟨true, true⟩ a.serde ∧
      Set ps "rocket" (SaysFlags E.syn E.rocket "FromFormField" "FromParam") ⟨true, true⟩ a.rocket := by
  simp only [bitAttribute, map_ok_iff, params_ok]
  constructor
  · rintro ⟨s, ⟨ps, hg, hr⟩, rfl⟩
    obtain ⟨hw, hs⟩ := run_names_ok (table E [("range", Key.bounds), ("serde", Key.serde), ("rocket", Key.rocket)]) [("range", Key.bounds), ("serde", Key.serde), ("rocket", Key.rocket)] (fun _ => rfl) distinctA_bit ps s hr
    refine ⟨ps, hg, hw, ?_, ?_, ?_⟩
    · exact (set_iff ..).2 ⟨s .bounds, (setOpt_congr fun p v => metaRange_ok E.syn E.full E.num p v).1 (hs "range" .bounds (by simp)), rfl⟩
    · exact (set_iff ..).2 ⟨s .serde, (setOpt_congr fun p v => metaFlags_ok E.syn E.serde "Serialize" "Deserialize" (by simp) p v).1 (hs "serde" .serde (by simp)), rfl⟩
    · exact (set_iff ..).2 ⟨s .rocket, (setOpt_congr fun p v => metaFlags_ok E.syn E.rocket "FromFormField" "FromParam" (by simp) p v).1 (hs "rocket" .rocket (by simp)), rfl⟩
  · rintro ⟨ps, hg, hw, h0, h1, h2⟩
    obtain ⟨o0, h0, e0⟩ := (set_iff ..).1 h0
    obtain ⟨o1, h1, e1⟩ := (set_iff ..).1 h1
    obtain ⟨o2, h2, e2⟩ := (set_iff ..).1 h2
    obtain ⟨s, hs, he⟩ := run_names_of (table E [("range", Key.bounds), ("serde", Key.serde), ("rocket", Key.rocket)]) [("range", Key.bounds), ("serde", Key.serde), ("rocket", Key.rocket)] (fun _ => rfl) distinctA_bit ps hw
      (fun | .bounds => o0 | .serde => o1 | .rocket => o2 | _ => none) (by
        intro n k hm
        simp only [List.mem_cons, Prod.mk.injEq, List.not_mem_nil, or_false] at hm
        rcases hm with ⟨rfl, rfl⟩ | ⟨rfl, rfl⟩ | ⟨rfl, rfl⟩
        · exact (setOpt_congr fun p v => metaRange_ok E.syn E.full E.num p v).2 h0
        · exact (setOpt_congr fun p v => metaFlags_ok E.syn E.serde "Serialize" "Deserialize" (by simp) p v).2 h1
        · exact (setOpt_congr fun p v => metaFlags_ok E.syn E.rocket "FromFormField" "FromParam" (by simp) p v).2 h2)
    have f0 : s .bounds = o0 := he "range" .bounds (by simp)
    have f1 : s .serde = o1 := he "serde" .serde (by simp)
    have f2 : s .rocket = o2 := he "rocket" .rocket (by simp)
    refine ⟨s, ⟨ps, hg, hs⟩, ?_⟩
    cases a
    rw [f0, f1, f2]
    congr 1 <;> symm <;> assumption

theorem distinctA_byte : Distinct [("range", Key.bounds), ("ignore_case", Key.ignoreCase), ("serde", Key.serde), ("rocket", Key.rocket)] := ⟨by simp, by simp⟩

theorem byte_iff (E : Env τ α κ) (m : Meta τ) (a : ByteAttribute α) :
    byteAttribute E m = .ok a ↔ ∃ ps, Gives E.syn m ps ∧
      WellFormed ["range", "ignore_case", "serde", "rocket"] ps ∧
      Set ps "range" (SaysRange E.syn E.full E.num) ⟨none, none, false⟩ a.range ∧
      Set ps "ignore_case" (SaysBool E.syn) true a.ignoreCase ∧
      Set ps "serde" (SaysFlags E.syn E.serde "Serialize" "Deserialize") ⟨true, true⟩ a.serde ∧
      Set ps "rocket" (SaysFlags E.syn E.rocket "FromFormField" "FromParam") ⟨true, true⟩ a.rocket := by
  simp only [byteAttribute, map_ok_iff, params_ok]
  constructor
  · rintro ⟨s, ⟨ps, hg, hr⟩, rfl⟩
    obtain ⟨hw, hs⟩ := run_names_ok (table E [("range", Key.bounds), ("ignore_case", Key.ignoreCase), ("serde", Key.serde), ("rocket", Key.rocket)]) [("range", Key.bounds), ("ignore_case", Key.ignoreCase), ("serde", Key.serde), ("rocket", Key.rocket)] (fun _ => rfl) distinctA_byte ps s hr
    refine ⟨ps, hg, hw, ?_, ?_, ?_, ?_⟩
    · exact (set_iff ..).2 ⟨s .bounds, (setOpt_congr fun p v => metaRange_ok E.syn E.full E.num p v).1 (hs "range" .bounds (by simp)), rfl⟩
    · exact (set_iff ..).2 ⟨s .ignoreCase, (setOpt_congr fun p v => metaBool_ok E.syn p v).1 (hs "ignore_case" .ignoreCase (by simp)), rfl⟩
    · exact (set_iff ..).2 ⟨s .serde, (setOpt_congr fun p v => metaFlags_ok E.syn E.serde "Serialize" "Deserialize" (by simp) p v).1 (hs "serde" .serde (by simp)), rfl⟩
    · exact (set_iff ..).2 ⟨s .rocket, (setOpt_congr fun p v => metaFlags_ok E.syn E.rocket "FromFormField" "FromParam" (by simp) p v).1 (hs "rocket" .rocket (by simp)), rfl⟩
  · rintro ⟨ps, hg, hw, h0, h1, h2, h3⟩
    obtain ⟨o0, h0, e0⟩ := (set_iff ..).1 h0
    obtain ⟨o1, h1, e1⟩ := (set_iff ..).1 h1
    obtain ⟨o2, h2, e2⟩ := (set_iff ..).1 h2
    obtain ⟨o3, h3, e3⟩ := (set_iff ..).1 h3
    obtain ⟨s, hs, he⟩ := run_names_of (table E [("range", Key.bounds), ("ignore_case", Key.ignoreCase), ("serde", Key.serde), ("rocket", Key.rocket)]) [("range", Key.bounds), ("ignore_case", Key.ignoreCase), ("serde", Key.serde), ("rocket", Key.rocket)] (fun _ => rfl) distinctA_byte ps hw
      (fun | .bounds => o0 | .ignoreCase => o1 | .serde => o2 | .rocket => o3 | _ => none) (by
        intro n k hm
        simp only [List.mem_cons, Prod.mk.injEq, List.not_mem_nil, or_false] at hm
        rcases hm with ⟨rfl, rfl⟩ | ⟨rfl, rfl⟩ | ⟨rfl, rfl⟩ | ⟨rfl, rfl⟩
        · exact (setOpt_congr fun p v => metaRange_ok E.syn E.full E.num p v).2 h0
        · exact (setOpt_congr fun p v => metaBool_ok E.syn p v).2 h1
        · exact (setOpt_congr fun p v => metaFlags_ok E.syn E.serde "Serialize" "Deserialize" (by simp) p v).2 h2
        · exact (setOpt_congr fun p v => metaFlags_ok E.syn E.rocket "FromFormField" "FromParam" (by simp) p v).2 h3)
    have f0 : s .bounds = o0 := he "range" .bounds (by simp)
    have f1 : s .ignoreCase = o1 := he "ignore_case" .ignoreCase (by simp)
    have f2 : s .serde = o2 := he "serde" .serde (by simp)
    have f3 : s .rocket = o3 := he "rocket" .rocket (by simp)
    refine ⟨s, ⟨ps, hg, hs⟩, ?_⟩
    cases a
    rw [f0, f1, f2, f3]
    congr 1 <;> symm <;> assumption

theorem distinctA_domain : Distinct [("ipv4", Key.ipv4), ("local", Key.loc), ("port", Key.port), ("at_least_two_labels", Key.atl), ("conflict", Key.conflict), ("serde", Key.serde), ("rocket", Key.rocket)] := ⟨by simp, by simp⟩

theorem domain_iff (E : Env τ α κ) (m : Meta τ) (a : DomainAttribute) :
    domainAttribute E m = .ok a ↔ ∃ ps, Gives E.syn m ps ∧
      WellFormed ["ipv4", "local", "port", "at_least_two_labels", "conflict", "serde", "rocket"] ps ∧
      Set ps "ipv4" (SaysTri E.syn) .allow a.ipv4 ∧
      Set ps "local" (SaysTri E.syn) .allow a.loc ∧
      Set ps "port" (SaysTri E.syn) .allow a.port ∧
      Set ps "at_least_two_labels" (SaysTri E.syn) .allow a.atl ∧
      Set ps "conflict" (SaysAllow E.syn) .disallow a.conflict ∧
      Set ps "serde" (SaysFlags E.syn E.serde "Serialize" "Deserialize") ⟨true, true⟩ a.serde ∧
      Set ps "rocket" (SaysFlags E.syn E.rocket "FromFormField" "FromParam") ⟨true, true⟩ a.rocket := by
  simp only [domainAttribute, map_ok_iff, params_ok]
  constructor
  · rintro ⟨s, ⟨ps, hg, hr⟩, rfl⟩
    obtain ⟨hw, hs⟩ := run_names_ok (table E [("ipv4", Key.ipv4), ("local", Key.loc), ("port", Key.port), ("at_least_two_labels", Key.atl), ("conflict", Key.conflict), ("serde", Key.serde), ("rocket", Key.rocket)]) [("ipv4", Key.ipv4), ("local", Key.loc), ("port", Key.port), ("at_least_two_labels", Key.atl), ("conflict", Key.conflict), ("serde", Key.serde), ("rocket", Key.rocket)] (fun _ => rfl) distinctA_domain ps s hr
    refine ⟨ps, hg, hw, ?_, ?_, ?_, ?_, ?_, ?_, ?_⟩
    · exact (set_iff ..).2 ⟨s .ipv4, (setOpt_congr fun p v => metaTriAllow_ok E.syn p v).1 (hs "ipv4" .ipv4 (by simp)), rfl⟩
    · exact (set_iff ..).2 ⟨s .loc, (setOpt_congr fun p v => metaTriAllow_ok E.syn p v).1 (hs "local" .loc (by simp)), rfl⟩
    · exact (set_iff ..).2 ⟨s .port, (setOpt_congr fun p v => metaTriAllow_ok E.syn p v).1 (hs "port" .port (by simp)), rfl⟩
    · exact (set_iff ..).2 ⟨s .atl, (setOpt_congr fun p v => metaTriAllow_ok E.syn p v).1 (hs "at_least_two_labels" .atl (by simp)), rfl⟩
    · exact (set_iff ..).2 ⟨s .conflict, (setOpt_congr fun p v => metaAllow_ok E.syn p v).1 (hs "conflict" .conflict (by simp)), rfl⟩
    · exact (set_iff ..).2 ⟨s .serde, (setOpt_congr fun p v => metaFlags_ok E.syn E.serde "Serialize" "Deserialize" (by simp) p v).1 (hs "serde" .serde (by simp)), rfl⟩
    · exact (set_iff ..).2 ⟨s .rocket, (setOpt_congr fun p v => metaFlags_ok E.syn E.rocket "FromFormField" "FromParam" (by simp) p v).1 (hs "rocket" .rocket (by simp)), rfl⟩
  · rintro ⟨ps, hg, hw, h0, h1, h2, h3, h4, h5, h6⟩
    obtain ⟨o0, h0, e0⟩ := (set_iff ..).1 h0
    obtain ⟨o1, h1, e1⟩ := (set_iff ..).1 h1
    obtain ⟨o2, h2, e2⟩ := (set_iff ..).1 h2
    obtain ⟨o3, h3, e3⟩ := (set_iff ..).1 h3
    obtain ⟨o4, h4, e4⟩ := (set_iff ..).1 h4
    obtain ⟨o5, h5, e5⟩ := (set_iff ..).1 h5
    obtain ⟨o6, h6, e6⟩ := (set_iff ..).1 h6
    obtain ⟨s, hs, he⟩ := run_names_of (table E [("ipv4", Key.ipv4), ("local", Key.loc), ("port", Key.port), ("at_least_two_labels", Key.atl), ("conflict", Key.conflict), ("serde", Key.serde), ("rocket", Key.rocket)]) [("ipv4", Key.ipv4), ("local", Key.loc), ("port", Key.port), ("at_least_two_labels", Key.atl), ("conflict", Key.conflict), ("serde", Key.serde), ("rocket", Key.rocket)] (fun _ => rfl) distinctA_domain ps hw
      (fun | .ipv4 => o0 | .loc => o1 | .port => o2 | .atl => o3 | .conflict => o4 | .serde => o5 | .rocket => o6 | _ => none) (by
        intro n k hm
        simp only [List.mem_cons, Prod.mk.injEq, List.not_mem_nil, or_false] at hm
        rcases hm with ⟨rfl, rfl⟩ | ⟨rfl, rfl⟩ | ⟨rfl, rfl⟩ | ⟨rfl, rfl⟩ | ⟨rfl, rfl⟩ | ⟨rfl, rfl⟩ | ⟨rfl, rfl⟩
        · exact (setOpt_congr fun p v => metaTriAllow_ok E.syn p v).2 h0
        · exact (setOpt_congr fun p v => metaTriAllow_ok E.syn p v).2 h1
        · exact (setOpt_congr fun p v => metaTriAllow_ok E.syn p v).2 h2
        · exact (setOpt_congr fun p v => metaTriAllow_ok E.syn p v).2 h3
        · exact (setOpt_congr fun p v => metaAllow_ok E.syn p v).2 h4
        · exact (setOpt_congr fun p v => metaFlags_ok E.syn E.serde "Serialize" "Deserialize" (by simp) p v).2 h5
        · exact (setOpt_congr fun p v => metaFlags_ok E.syn E.rocket "FromFormField" "FromParam" (by simp) p v).2 h6)
    have f0 : s .ipv4 = o0 := he "ipv4" .ipv4 (by simp)
    have f1 : s .loc = o1 := he "local" .loc (by simp)
    have f2 : s .port = o2 := he "port" .port (by simp)
    have f3 : s .atl = o3 := he "at_least_two_labels" .atl (by simp)
    have f4 : s .conflict = o4 := he "conflict" .conflict (by simp)
    have f5 : s .serde = o5 := he "serde" .serde (by simp)
    have f6 : s .rocket = o6 := he "rocket" .rocket (by simp)
    refine ⟨s, ⟨ps, hg, hs⟩, ?_⟩
    cases a
    rw [f0, f1, f2, f3, f4, f5, f6]
    congr 1 <;> symm <;> assumption

theorem distinctA_email : Distinct [("comment", Key.comment), ("ip", Key.ip), ("local", Key.loc), ("at_least_two_labels", Key.atl), ("non_ascii", Key.nonAscii), ("conflict", Key.conflict), ("serde", Key.serde), ("rocket", Key.rocket)] := ⟨by simp, by simp⟩

theorem email_iff (E : Env τ α κ) (m : Meta τ) (a : EmailAttribute) :
    emailAttribute E m = .ok a ↔ ∃ ps, Gives E.syn m ps ∧
      WellFormed ["comment", "ip", "local", "at_least_two_labels", "non_ascii", "conflict", "serde", "rocket"] ps ∧
      Set ps "comment" (SaysAllow E.syn) .allow a.comment ∧
      Set ps "ip" (SaysTri E.syn) .allow a.ip ∧
      Set ps "local" (SaysTri E.syn) .allow a.loc ∧
      Set ps "at_least_two_labels" (SaysTri E.syn) .allow a.atl ∧
      Set ps "non_ascii" (SaysAllow E.syn) .allow a.nonAscii ∧
      Set ps "conflict" (SaysAllow E.syn) .disallow a.conflict ∧
      Set ps "serde" (SaysFlags E.syn E.serde "Serialize" "Deserialize") ⟨true, true⟩ a.serde ∧
      Set ps "rocket" (SaysFlags E.syn E.rocket "FromFormField" "FromParam") ⟨true, true⟩ a.rocket := by
  simp only [emailAttribute, map_ok_iff, params_ok]
  constructor
  · rintro ⟨s, ⟨ps, hg, hr⟩, rfl⟩
    obtain ⟨hw, hs⟩ := run_names_ok (table E [("comment", Key.comment), ("ip", Key.ip), ("local", Key.loc), ("at_least_two_labels", Key.atl), ("non_ascii", Key.nonAscii), ("conflict", Key.conflict), ("serde", Key.serde), ("rocket", Key.rocket)]) [("comment", Key.comment), ("ip", Key.ip), ("local", Key.loc), ("at_least_two_labels", Key.atl), ("non_ascii", Key.nonAscii), ("conflict", Key.conflict), ("serde", Key.serde), ("rocket", Key.rocket)] (fun _ => rfl) distinctA_email ps s hr
    refine ⟨ps, hg, hw, ?_, ?_, ?_, ?_, ?_, ?_, ?_, ?_⟩
    · exact (set_iff ..).2 ⟨s .comment, (setOpt_congr fun p v => metaAllow_ok E.syn p v).1 (hs "comment" .comment (by simp)), rfl⟩
    · exact (set_iff ..).2 ⟨s .ip, (setOpt_congr fun p v => metaTriAllow_ok E.syn p v).1 (hs "ip" .ip (by simp)), rfl⟩
    · exact (set_iff ..).2 ⟨s .loc, (setOpt_congr fun p v => metaTriAllow_ok E.syn p v).1 (hs "local" .loc (by simp)), rfl⟩
    · exact (set_iff ..).2 ⟨s .atl, (setOpt_congr fun p v => metaTriAllow_ok E.syn p v).1 (hs "at_least_two_labels" .atl (by simp)), rfl⟩
    · exact (set_iff ..).2 ⟨s .nonAscii, (setOpt_congr fun p v => metaAllow_ok E.syn p v).1 (hs "non_ascii" .nonAscii (by simp)), rfl⟩
    · exact (set_iff ..).2 ⟨s .conflict, (setOpt_congr fun p v => metaAllow_ok E.syn p v).1 (hs "conflict" .conflict (by simp)), rfl⟩
    · exact (set_iff ..).2 ⟨s .serde, (setOpt_congr fun p v => metaFlags_ok E.syn E.serde "Serialize" "Deserialize" (by simp) p v).1 (hs "serde" .serde (by simp)), rfl⟩
    · exact (set_iff ..).2 ⟨s .rocket, (setOpt_congr fun p v => metaFlags_ok E.syn E.rocket "FromFormField" "FromParam" (by simp) p v).1 (hs "rocket" .rocket (by simp)), rfl⟩
  · rintro ⟨ps, hg, hw, h0, h1, h2, h3, h4, h5, h6, h7⟩
    obtain ⟨o0, h0, e0⟩ := (set_iff ..).1 h0
    obtain ⟨o1, h1, e1⟩ := (set_iff ..).1 h1
    obtain ⟨o2, h2, e2⟩ := (set_iff ..).1 h2
    obtain ⟨o3, h3, e3⟩ := (set_iff ..).1 h3
    obtain ⟨o4, h4, e4⟩ := (set_iff ..).1 h4
    obtain ⟨o5, h5, e5⟩ := (set_iff ..).1 h5
    obtain ⟨o6, h6, e6⟩ := (set_iff ..).1 h6
    obtain ⟨o7, h7, e7⟩ := (set_iff ..).1 h7
    obtain ⟨s, hs, he⟩ := run_names_of (table E [("comment", Key.comment), ("ip", Key.ip), ("local", Key.loc), ("at_least_two_labels", Key.atl), ("non_ascii", Key.nonAscii), ("conflict", Key.conflict), ("serde", Key.serde), ("rocket", Key.rocket)]) [("comment", Key.comment), ("ip", Key.ip), ("local", Key.loc), ("at_least_two_labels", Key.atl), ("non_ascii", Key.nonAscii), ("conflict", Key.conflict), ("serde", Key.serde), ("rocket", Key.rocket)] (fun _ => rfl) distinctA_email ps hw
      (fun | .comment => o0 | .ip => o1 | .loc => o2 | .atl => o3 | .nonAscii => o4 | .conflict => o5 | .serde => o6 | .rocket => o7 | _ => none) (by
        intro n k hm
        simp only [List.mem_cons, Prod.mk.injEq, List.not_mem_nil, or_false] at hm
        rcases hm with ⟨rfl, rfl⟩ | ⟨rfl, rfl⟩ | ⟨rfl, rfl⟩ | ⟨rfl, rfl⟩ | ⟨rfl, rfl⟩ | ⟨rfl, rfl⟩ | ⟨rfl, rfl⟩ | ⟨rfl, rfl⟩
        · exact (setOpt_congr fun p v => metaAllow_ok E.syn p v).2 h0
        · exact (setOpt_congr fun p v => metaTriAllow_ok E.syn p v).2 h1
        · exact (setOpt_congr fun p v => metaTriAllow_ok E.syn p v).2 h2
        · exact (setOpt_congr fun p v => metaTriAllow_ok E.syn p v).2 h3
        · exact (setOpt_congr fun p v => metaAllow_ok E.syn p v).2 h4
        · exact (setOpt_congr fun p v => metaAllow_ok E.syn p v).2 h5
        · exact (setOpt_congr fun p v => metaFlags_ok E.syn E.serde "Serialize" "Deserialize" (by simp) p v).2 h6
        · exact (setOpt_congr fun p v => metaFlags_ok E.syn E.rocket "FromFormField" "FromParam" (by simp) p v).2 h7)
    have f0 : s .comment = o0 := he "comment" .comment (by simp)
    have f1 : s .ip = o1 := he "ip" .ip (by simp)
    have f2 : s .loc = o2 := he "local" .loc (by simp)
    have f3 : s .atl = o3 := he "at_least_two_labels" .atl (by simp)
    have f4 : s .nonAscii = o4 := he "non_ascii" .nonAscii (by simp)
    have f5 : s .conflict = o5 := he "conflict" .conflict (by simp)
    have f6 : s .serde = o6 := he "serde" .serde (by simp)
    have f7 : s .rocket = o7 := he "rocket" .rocket (by simp)
    refine ⟨s, ⟨ps, hg, hs⟩, ?_⟩
    cases a
    rw [f0, f1, f2, f3, f4, f5, f6, f7]
    congr 1 <;> symm <;> assumption

theorem distinctA_host : Distinct [("local", Key.loc), ("port", Key.port), ("at_least_two_labels", Key.atl), ("serde", Key.serde), ("rocket", Key.rocket)] := ⟨by simp, by simp⟩

theorem host_iff (E : Env τ α κ) (m : Meta τ) (a : HostAttribute) :
    hostAttribute E m = .ok a ↔ ∃ ps, Gives E.syn m ps ∧
      WellFormed ["local", "port", "at_least_two_labels", "serde", "rocket"] ps ∧
      Set ps "local" (SaysTri E.syn) .allow a.loc ∧
      Set ps "port" (SaysTri E.syn) .allow a.port ∧
      Set ps "at_least_two_labels" (SaysTri E.syn) .allow a.atl ∧
      Set ps "serde" (SaysFlags E.syn E.serde "Serialize" "Deserialize") ⟨true, true⟩ a.serde ∧
      Set ps "rocket" (SaysFlags E.syn E.rocket "FromFormField" "FromParam") ⟨true, true⟩ a.rocket := by
  simp only [hostAttribute, map_ok_iff, params_ok]
  constructor
  · rintro ⟨s, ⟨ps, hg, hr⟩, rfl⟩
    obtain ⟨hw, hs⟩ := run_names_ok (table E [("local", Key.loc), ("port", Key.port), ("at_least_two_labels", Key.atl), ("serde", Key.serde), ("rocket", Key.rocket)]) [("local", Key.loc), ("port", Key.port), ("at_least_two_labels", Key.atl), ("serde", Key.serde), ("rocket", Key.rocket)] (fun _ => rfl) distinctA_host ps s hr
    refine ⟨ps, hg, hw, ?_, ?_, ?_, ?_, ?_⟩
    · exact (set_iff ..).2 ⟨s .loc, (setOpt_congr fun p v => metaTriAllow_ok E.syn p v).1 (hs "local" .loc (by simp)), rfl⟩
    · exact (set_iff ..).2 ⟨s .port, (setOpt_congr fun p v => metaTriAllow_ok E.syn p v).1 (hs "port" .port (by simp)), rfl⟩
    · exact (set_iff ..).2 ⟨s .atl, (setOpt_congr fun p v => metaTriAllow_ok E.syn p v).1 (hs "at_least_two_labels" .atl (by simp)), rfl⟩
    · exact (set_iff ..).2 ⟨s .serde, (setOpt_congr fun p v => metaFlags_ok E.syn E.serde "Serialize" "Deserialize" (by simp) p v).1 (hs "serde" .serde (by simp)), rfl⟩
    · exact (set_iff ..).2 ⟨s .rocket, (setOpt_congr fun p v => metaFlags_ok E.syn E.rocket "FromFormField" "FromParam" (by simp) p v).1 (hs "rocket" .rocket (by simp)), rfl⟩
  · rintro ⟨ps, hg, hw, h0, h1, h2, h3, h4⟩
    obtain ⟨o0, h0, e0⟩ := (set_iff ..).1 h0
    obtain ⟨o1, h1, e1⟩ := (set_iff ..).1 h1
    obtain ⟨o2, h2, e2⟩ := (set_iff ..).1 h2
    obtain ⟨o3, h3, e3⟩ := (set_iff ..).1 h3
    obtain ⟨o4, h4, e4⟩ := (set_iff ..).1 h4
    obtain ⟨s, hs, he⟩ := run_names_of (table E [("local", Key.loc), ("port", Key.port), ("at_least_two_labels", Key.atl), ("serde", Key.serde), ("rocket", Key.rocket)]) [("local", Key.loc), ("port", Key.port), ("at_least_two_labels", Key.atl), ("serde", Key.serde), ("rocket", Key.rocket)] (fun _ => rfl) distinctA_host ps hw
      (fun | .loc => o0 | .port => o1 | .atl => o2 | .serde => o3 | .rocket => o4 | _ => none) (by
        intro n k hm
        simp only [List.mem_cons, Prod.mk.injEq, List.not_mem_nil, or_false] at hm
        rcases hm with ⟨rfl, rfl⟩ | ⟨rfl, rfl⟩ | ⟨rfl, rfl⟩ | ⟨rfl, rfl⟩ | ⟨rfl, rfl⟩
        · exact (setOpt_congr fun p v => metaTriAllow_ok E.syn p v).2 h0
        · exact (setOpt_congr fun p v => metaTriAllow_ok E.syn p v).2 h1
        · exact (setOpt_congr fun p v => metaTriAllow_ok E.syn p v).2 h2
        · exact (setOpt_congr fun p v => metaFlags_ok E.syn E.serde "Serialize" "Deserialize" (by simp) p v).2 h3
        · exact (setOpt_congr fun p v => metaFlags_ok E.syn E.rocket "FromFormField" "FromParam" (by simp) p v).2 h4)
    have f0 : s .loc = o0 := he "local" .loc (by simp)
    have f1 : s .port = o1 := he "port" .port (by simp)
    have f2 : s .atl = o2 := he "at_least_two_labels" .atl (by simp)
    have f3 : s .serde = o3 := he "serde" .serde (by simp)
    have f4 : s .rocket = o4 := he "rocket" .rocket (by simp)
    refine ⟨s, ⟨ps, hg, hs⟩, ?_⟩
    cases a
    rw [f0, f1, f2, f3, f4]
    congr 1 <;> symm <;> assumption

theorem distinctA_hex : Distinct [("case", Key.case), ("separator", Key.separator), ("serde", Key.serde), ("rocket", Key.rocket)] := ⟨by simp, by simp⟩

theorem hex_iff (sep : Char) (E : Env τ α κ) (m : Meta τ) (a : HexAttribute) :
    hexAttribute sep E m = .ok a ↔ ∃ ps, Gives E.syn m ps ∧
      WellFormed ["case", "separator", "serde", "rocket"] ps ∧
      Set ps "case" (SaysCase E.syn) .any a.case ∧
      Set ps "separator" (SaysSeparator E.syn) (.allow (asc sep)) a.separator ∧
      Set ps "serde" (SaysFlags E.syn E.serde "Serialize" "Deserialize") ⟨true, true⟩ a.serde ∧
      Set ps "rocket" (SaysFlags E.syn E.rocket "FromFormField" "FromParam") ⟨true, true⟩ a.rocket := by
  simp only [hexAttribute, map_ok_iff, params_ok]
  constructor
  · rintro ⟨s, ⟨ps, hg, hr⟩, rfl⟩
    obtain ⟨hw, hs⟩ := run_names_ok (table E [("case", Key.case), ("separator", Key.separator), ("serde", Key.serde), ("rocket", Key.rocket)]) [("case", Key.case), ("separator", Key.separator), ("serde", Key.serde), ("rocket", Key.rocket)] (fun _ => rfl) distinctA_hex ps s hr
    refine ⟨ps, hg, hw, ?_, ?_, ?_, ?_⟩
    · exact (set_iff ..).2 ⟨s .case, (setOpt_congr fun p v => metaCase_ok E.syn p v).1 (hs "case" .case (by simp)), rfl⟩
    · exact (set_iff ..).2 ⟨s .separator, (setOpt_congr fun p v => metaSeparator_ok E.syn p v).1 (hs "separator" .separator (by simp)), rfl⟩
    · exact (set_iff ..).2 ⟨s .serde, (setOpt_congr fun p v => metaFlags_ok E.syn E.serde "Serialize" "Deserialize" (by simp) p v).1 (hs "serde" .serde (by simp)), rfl⟩
    · exact (set_iff ..).2 ⟨s .rocket, (setOpt_congr fun p v => metaFlags_ok E.syn E.rocket "FromFormField" "FromParam" (by simp) p v).1 (hs "rocket" .rocket (by simp)), rfl⟩
  · rintro ⟨ps, hg, hw, h0, h1, h2, h3⟩
    obtain ⟨o0, h0, e0⟩ := (set_iff ..).1 h0
    obtain ⟨o1, h1, e1⟩ := (set_iff ..).1 h1
    obtain ⟨o2, h2, e2⟩ := (set_iff ..).1 h2
    obtain ⟨o3, h3, e3⟩ := (set_iff ..).1 h3
    obtain ⟨s, hs, he⟩ := run_names_of (table E [("case", Key.case), ("separator", Key.separator), ("serde", Key.serde), ("rocket", Key.rocket)]) [("case", Key.case), ("separator", Key.separator), ("serde", Key.serde), ("rocket", Key.rocket)] (fun _ => rfl) distinctA_hex ps hw
      (fun | .case => o0 | .separator => o1 | .serde => o2 | .rocket => o3 | _ => none) (by
        intro n k hm
        simp only [List.mem_cons, Prod.mk.injEq, List.not_mem_nil, or_false] at hm
        rcases hm with ⟨rfl, rfl⟩ | ⟨rfl, rfl⟩ | ⟨rfl, rfl⟩ | ⟨rfl, rfl⟩
        · exact (setOpt_congr fun p v => metaCase_ok E.syn p v).2 h0
        · exact (setOpt_congr fun p v => metaSeparator_ok E.syn p v).2 h1
        · exact (setOpt_congr fun p v => metaFlags_ok E.syn E.serde "Serialize" "Deserialize" (by simp) p v).2 h2
        · exact (setOpt_congr fun p v => metaFlags_ok E.syn E.rocket "FromFormField" "FromParam" (by simp) p v).2 h3)
    have f0 : s .case = o0 := he "case" .case (by simp)
    have f1 : s .separator = o1 := he "separator" .separator (by simp)
    have f2 : s .serde = o2 := he "serde" .serde (by simp)
    have f3 : s .rocket = o3 := he "rocket" .rocket (by simp)
    refine ⟨s, ⟨ps, hg, hs⟩, ?_⟩
    cases a
    rw [f0, f1, f2, f3]
    congr 1 <;> symm <;> assumption

theorem distinctA_number : Distinct [("range", Key.range), ("nan", Key.nan), ("conflict", Key.conflict), ("serde", Key.serde), ("rocket", Key.rocket)] := ⟨by simp, by simp⟩

theorem number_iff (E : Env τ α κ) (m : Meta τ) (a : NumberAttribute α) :
    numberAttribute E m = .ok a ↔ ∃ ps, Gives E.syn m ps ∧
      WellFormed ["range", "nan", "conflict", "serde", "rocket"] ps ∧
      Set ps "range" (SaysFinite E.syn E.full E.num) .unlimited a.range ∧
      Set ps "nan" (SaysTri E.syn) .allow a.nan ∧
      Set ps "conflict" (SaysAllow E.syn) .disallow a.conflict ∧
      Set ps "serde" (SaysFlags E.syn E.serde "Serialize" "Deserialize") ⟨true, true⟩ a.serde ∧
      Set ps "rocket" (SaysFlags E.syn E.rocket "FromFormField" "FromParam") ⟨true, true⟩ a.rocket := by
  simp only [numberAttribute, map_ok_iff, params_ok]
  constructor
  · rintro ⟨s, ⟨ps, hg, hr⟩, rfl⟩
    obtain ⟨hw, hs⟩ := run_names_ok (table E [("range", Key.range), ("nan", Key.nan), ("conflict", Key.conflict), ("serde", Key.serde), ("rocket", Key.rocket)]) [("range", Key.range), ("nan", Key.nan), ("conflict", Key.conflict), ("serde", Key.serde), ("rocket", Key.rocket)] (fun _ => rfl) distinctA_number ps s hr
    refine ⟨ps, hg, hw, ?_, ?_, ?_, ?_, ?_⟩
    · exact (set_iff ..).2 ⟨s .range, (setOpt_congr fun p v => readRange_ok E p v).1 (hs "range" .range (by simp)), rfl⟩
    · exact (set_iff ..).2 ⟨s .nan, (setOpt_congr fun p v => metaTriAllow_ok E.syn p v).1 (hs "nan" .nan (by simp)), rfl⟩
    · exact (set_iff ..).2 ⟨s .conflict, (setOpt_congr fun p v => metaAllow_ok E.syn p v).1 (hs "conflict" .conflict (by simp)), rfl⟩
    · exact (set_iff ..).2 ⟨s .serde, (setOpt_congr fun p v => metaFlags_ok E.syn E.serde "Serialize" "Deserialize" (by simp) p v).1 (hs "serde" .serde (by simp)), rfl⟩
    · exact (set_iff ..).2 ⟨s .rocket, (setOpt_congr fun p v => metaFlags_ok E.syn E.rocket "FromFormField" "FromParam" (by simp) p v).1 (hs "rocket" .rocket (by simp)), rfl⟩
  · rintro ⟨ps, hg, hw, h0, h1, h2, h3, h4⟩
    obtain ⟨o0, h0, e0⟩ := (set_iff ..).1 h0
    obtain ⟨o1, h1, e1⟩ := (set_iff ..).1 h1
    obtain ⟨o2, h2, e2⟩ := (set_iff ..).1 h2
    obtain ⟨o3, h3, e3⟩ := (set_iff ..).1 h3
    obtain ⟨o4, h4, e4⟩ := (set_iff ..).1 h4
    obtain ⟨s, hs, he⟩ := run_names_of (table E [("range", Key.range), ("nan", Key.nan), ("conflict", Key.conflict), ("serde", Key.serde), ("rocket", Key.rocket)]) [("range", Key.range), ("nan", Key.nan), ("conflict", Key.conflict), ("serde", Key.serde), ("rocket", Key.rocket)] (fun _ => rfl) distinctA_number ps hw
      (fun | .range => o0 | .nan => o1 | .conflict => o2 | .serde => o3 | .rocket => o4 | _ => none) (by
        intro n k hm
        simp only [List.mem_cons, Prod.mk.injEq, List.not_mem_nil, or_false] at hm
        rcases hm with ⟨rfl, rfl⟩ | ⟨rfl, rfl⟩ | ⟨rfl, rfl⟩ | ⟨rfl, rfl⟩ | ⟨rfl, rfl⟩
        · exact (setOpt_congr fun p v => readRange_ok E p v).2 h0
        · exact (setOpt_congr fun p v => metaTriAllow_ok E.syn p v).2 h1
        · exact (setOpt_congr fun p v => metaAllow_ok E.syn p v).2 h2
        · exact (setOpt_congr fun p v => metaFlags_ok E.syn E.serde "Serialize" "Deserialize" (by simp) p v).2 h3
        · exact (setOpt_congr fun p v => metaFlags_ok E.syn E.rocket "FromFormField" "FromParam" (by simp) p v).2 h4)
    have f0 : s .range = o0 := he "range" .range (by simp)
    have f1 : s .nan = o1 := he "nan" .nan (by simp)
    have f2 : s .conflict = o2 := he "conflict" .conflict (by simp)
    have f3 : s .serde = o3 := he "serde" .serde (by simp)
    have f4 : s .rocket = o4 := he "rocket" .rocket (by simp)
    refine ⟨s, ⟨ps, hg, hs⟩, ?_⟩
    cases a
    rw [f0, f1, f2, f3, f4]
    congr 1 <;> symm <;> assumption

theorem distinctA_phone : Distinct [("countries", Key.countries), ("serde", Key.serde), ("rocket", Key.rocket)] := ⟨by simp, by simp⟩

theorem phone_iff (E : Env τ α κ) (m : Meta τ) (a : PhoneAttribute κ) :
    phoneAttribute E m = .ok a ↔ ∃ ps, Gives E.syn m ps ∧
      WellFormed ["countries", "serde", "rocket"] ps ∧
      Set ps "countries" (SaysCountries E.syn E.country E.order) [] a.countries ∧
      Set ps "serde" (SaysFlags E.syn E.serde "Serialize" "Deserialize") ⟨true, true⟩ a.serde ∧
      Set ps "rocket" (SaysFlags E.syn E.rocket "FromFormField" "FromParam") ⟨true, true⟩ a.rocket := by
  simp only [phoneAttribute, map_ok_iff, params_ok]
  constructor
  · rintro ⟨s, ⟨ps, hg, hr⟩, rfl⟩
    obtain ⟨hw, hs⟩ := run_names_ok (table E [("countries", Key.countries), ("serde", Key.serde), ("rocket", Key.rocket)]) [("countries", Key.countries), ("serde", Key.serde), ("rocket", Key.rocket)] (fun _ => rfl) distinctA_phone ps s hr
    refine ⟨ps, hg, hw, ?_, ?_, ?_⟩
    · exact (set_iff ..).2 ⟨s .countries, (setOpt_congr fun p v => metaCountries_ok E.syn E.country E.order p v).1 (hs "countries" .countries (by simp)), rfl⟩
    · exact (set_iff ..).2 ⟨s .serde, (setOpt_congr fun p v => metaFlags_ok E.syn E.serde "Serialize" "Deserialize" (by simp) p v).1 (hs "serde" .serde (by simp)), rfl⟩
    · exact (set_iff ..).2 ⟨s .rocket, (setOpt_congr fun p v => metaFlags_ok E.syn E.rocket "FromFormField" "FromParam" (by simp) p v).1 (hs "rocket" .rocket (by simp)), rfl⟩
  · rintro ⟨ps, hg, hw, h0, h1, h2⟩
    obtain ⟨o0, h0, e0⟩ := (set_iff ..).1 h0
    obtain ⟨o1, h1, e1⟩ := (set_iff ..).1 h1
    obtain ⟨o2, h2, e2⟩ := (set_iff ..).1 h2
    obtain ⟨s, hs, he⟩ := run_names_of (table E [("countries", Key.countries), ("serde", Key.serde), ("rocket", Key.rocket)]) [("countries", Key.countries), ("serde", Key.serde), ("rocket", Key.rocket)] (fun _ => rfl) distinctA_phone ps hw
      (fun | .countries => o0 | .serde => o1 | .rocket => o2 | _ => none) (by
        intro n k hm
        simp only [List.mem_cons, Prod.mk.injEq, List.not_mem_nil, or_false] at hm
        rcases hm with ⟨rfl, rfl⟩ | ⟨rfl, rfl⟩ | ⟨rfl, rfl⟩
        · exact (setOpt_congr fun p v => metaCountries_ok E.syn E.country E.order p v).2 h0
        · exact (setOpt_congr fun p v => metaFlags_ok E.syn E.serde "Serialize" "Deserialize" (by simp) p v).2 h1
        · exact (setOpt_congr fun p v => metaFlags_ok E.syn E.rocket "FromFormField" "FromParam" (by simp) p v).2 h2)
    have f0 : s .countries = o0 := he "countries" .countries (by simp)
    have f1 : s .serde = o1 := he "serde" .serde (by simp)
    have f2 : s .rocket = o2 := he "rocket" .rocket (by simp)
    refine ⟨s, ⟨ps, hg, hs⟩, ?_⟩
    cases a
    rw [f0, f1, f2]
    congr 1 <;> symm <;> assumption

/-! ## Length and regex -/

theorem distinctA_length : Distinct [("min", Key.min), ("max", Key.max), ("serde", Key.serde)] := ⟨by simp, by simp⟩

theorem length_iff (E : Env τ α κ) (m : Meta τ) (a : LengthAttribute) :
    lengthAttribute E m = .ok a ↔ ∃ ps, Gives E.syn m ps ∧ WellFormed ["min", "max", "serde"] ps ∧
      SetOpt ps "min" (SaysNumber E.syn E.usize) a.min ∧ SetOpt ps "max" (SaysNumber E.syn E.usize) a.max ∧
      Set ps "serde" (SaysFlags E.syn E.serde "Serialize" "Deserialize") ⟨true, true⟩ a.serde ∧ NotAbove a.min a.max := by
  simp only [lengthAttribute, bind_ok_iff, params_ok, Out.ok.injEq]
  constructor
  · rintro ⟨s, ⟨ps, hg, hr⟩, u, hna, rfl⟩
    obtain ⟨hw, hs⟩ := run_names_ok (table E [("min", Key.min), ("max", Key.max), ("serde", Key.serde)])
      [("min", Key.min), ("max", Key.max), ("serde", Key.serde)] (fun _ => rfl) distinctA_length ps s hr
    refine ⟨ps, hg, hw, ?_, ?_, ?_, (notAbove_ok _ _ ).1 hna⟩
    · exact (setOpt_congr fun p v => metaNumber_ok E.syn E.usize p v).1 (hs "min" .min (by simp))
    · exact (setOpt_congr fun p v => metaNumber_ok E.syn E.usize p v).1 (hs "max" .max (by simp))
    · exact (set_iff ..).2 ⟨s .serde, (setOpt_congr fun p v => metaFlags_ok E.syn E.serde "Serialize" "Deserialize" (by simp) p v).1
        (hs "serde" .serde (by simp)), rfl⟩
  · rintro ⟨ps, hg, hw, h0, h1, h2, hna⟩
    obtain ⟨o2, h2, e2⟩ := (set_iff ..).1 h2
    obtain ⟨s, hs, he⟩ := run_names_of (table E [("min", Key.min), ("max", Key.max), ("serde", Key.serde)])
      [("min", Key.min), ("max", Key.max), ("serde", Key.serde)] (fun _ => rfl) distinctA_length ps hw
      (fun | .min => a.min | .max => a.max | .serde => o2 | _ => none) (by
        intro n k hm
        simp only [List.mem_cons, Prod.mk.injEq, List.not_mem_nil, or_false] at hm
        rcases hm with ⟨rfl, rfl⟩ | ⟨rfl, rfl⟩ | ⟨rfl, rfl⟩
        · exact (setOpt_congr fun p v => metaNumber_ok E.syn E.usize p v).2 h0
        · exact (setOpt_congr fun p v => metaNumber_ok E.syn E.usize p v).2 h1
        · exact (setOpt_congr fun p v => metaFlags_ok E.syn E.serde "Serialize" "Deserialize" (by simp) p v).2 h2)
    have f0 : s .min = a.min := he "min" .min (by simp)
    have f1 : s .max = a.max := he "max" .max (by simp)
    have f2 : s .serde = o2 := he "serde" .serde (by simp)
    refine ⟨s, ⟨ps, hg, hs⟩, (), ?_, ?_⟩
    · rw [f0, f1]; exact (notAbove_ok _ _).2 hna
    · cases a; rw [f0, f1, f2]; congr 1; exact e2.symm

theorem distinctA_regex : Distinct [("regex", Key.regex), ("serde", Key.serde), ("rocket", Key.rocket)] := ⟨by simp, by simp⟩

theorem regex_iff (E : Env τ α κ) (m : Meta τ) (a : RegexAttribute) :
    regexAttribute E m = .ok a ↔ ∃ ps, Gives E.syn m ps ∧ WellFormed ["regex", "serde", "rocket"] ps ∧
      SetOpt ps "regex" (SaysRegex E.syn E.regexOk) (some a.regex) ∧
      Set ps "serde" (SaysFlags E.syn E.serde "Serialize" "Deserialize") ⟨true, true⟩ a.serde ∧
      Set ps "rocket" (SaysFlags E.syn E.rocket "FromFormField" "FromParam") ⟨true, true⟩ a.rocket := by
  simp only [regexAttribute, bind_ok_iff, params_ok]
  constructor
  · rintro ⟨s, ⟨ps, hg, hr⟩, h⟩
    obtain ⟨hw, hs⟩ := run_names_ok (table E [("regex", Key.regex), ("serde", Key.serde), ("rocket", Key.rocket)])
      [("regex", Key.regex), ("serde", Key.serde), ("rocket", Key.rocket)] (fun _ => rfl) distinctA_regex ps s hr
    cases hx : (s Key.regex : Option Expr) with
    | none => simp [hx] at h
    | some e =>
      simp only [hx, Out.ok.injEq] at h
      subst h
      refine ⟨ps, hg, hw, ?_, ?_, ?_⟩
      · have := hs "regex" .regex (by simp)
        rw [hx] at this
        exact (setOpt_congr fun p v => metaRegex_ok E.syn E.regexOk p v).1 this
      · exact (set_iff ..).2 ⟨s .serde, (setOpt_congr fun p v => metaFlags_ok E.syn E.serde "Serialize" "Deserialize" (by simp) p v).1
          (hs "serde" .serde (by simp)), rfl⟩
      · exact (set_iff ..).2 ⟨s .rocket, (setOpt_congr fun p v => metaFlags_ok E.syn E.rocket "FromFormField" "FromParam" (by simp) p v).1
          (hs "rocket" .rocket (by simp)), rfl⟩
  · rintro ⟨ps, hg, hw, h0, h1, h2⟩
    obtain ⟨o1, h1, e1⟩ := (set_iff ..).1 h1
    obtain ⟨o2, h2, e2⟩ := (set_iff ..).1 h2
    obtain ⟨s, hs, he⟩ := run_names_of (table E [("regex", Key.regex), ("serde", Key.serde), ("rocket", Key.rocket)])
      [("regex", Key.regex), ("serde", Key.serde), ("rocket", Key.rocket)] (fun _ => rfl) distinctA_regex ps hw
      (fun | .regex => some a.regex | .serde => o1 | .rocket => o2 | _ => none) (by
        intro n k hm
        simp only [List.mem_cons, Prod.mk.injEq, List.not_mem_nil, or_false] at hm
        rcases hm with ⟨rfl, rfl⟩ | ⟨rfl, rfl⟩ | ⟨rfl, rfl⟩
        · exact (setOpt_congr fun p v => metaRegex_ok E.syn E.regexOk p v).2 h0
        · exact (setOpt_congr fun p v => metaFlags_ok E.syn E.serde "Serialize" "Deserialize" (by simp) p v).2 h1
        · exact (setOpt_congr fun p v => metaFlags_ok E.syn E.rocket "FromFormField" "FromParam" (by simp) p v).2 h2)
    have f0 : s .regex = some a.regex := he "regex" .regex (by simp)
    have f1 : s .serde = o1 := he "serde" .serde (by simp)
    have f2 : s .rocket = o2 := he "rocket" .rocket (by simp)
    refine ⟨s, ⟨ps, hg, hs⟩, ?_⟩
    rw [f0, f1, f2]
    cases a; simp only [Out.ok.injEq]; congr 1 <;> symm <;> assumption

/-! ## Text and line: two names for one variable -/

theorem utf8_key (E : Env τ α κ) (p : Meta τ) (k : Key) :
    (table E [("char_length", .length), ("byte_length", .length), ("serde", .serde), ("rocket", .rocket)]).keyOf p = some k ↔
      (p.name = some "char_length" ∧ k = .length) ∨ (p.name = some "byte_length" ∧ k = .length) ∨
      (p.name = some "serde" ∧ k = .serde) ∨ (p.name = some "rocket" ∧ k = .rocket) := by
  unfold Table.keyOf table
  cases p.name with
  | none => simp
  | some n =>
    simp only [Option.bind_some, List.lookup, Option.some.injEq]
    by_cases h1 : n = "char_length"
    · subst h1; simp [eq_comm (a := Key.length)]
    · by_cases h2 : n = "byte_length"
      · subst h2; simp [eq_comm (a := Key.length)]
      · by_cases h3 : n = "serde"
        · subst h3; simp [eq_comm (a := Key.serde)]
        · by_cases h4 : n = "rocket"
          · subst h4; simp [eq_comm (a := Key.rocket)]
          · simp [h1, h2, h3, h4, beq_eq_false_iff_ne.2 h1, beq_eq_false_iff_ne.2 h2, beq_eq_false_iff_ne.2 h3, beq_eq_false_iff_ne.2 h4]

theorem nodup_map_inj {β γ : Type} (f : β → γ) (l : List β) (h : (l.map f).Nodup) (x y : β) (hx : x ∈ l) (hy : y ∈ l)
    (e : f x = f y) : x = y := by
  induction l with
  | nil => simp at hx
  | cons a l ih =>
    simp only [List.map_cons, List.nodup_cons, List.mem_map, not_exists, not_and] at h
    rcases List.mem_cons.1 hx with rfl | hx' <;> rcases List.mem_cons.1 hy with rfl | hy'
    · rfl
    · exact (h.1 y hy' e.symm).elim
    · exact (h.1 x hx' e).elim
    · exact ih h.2 hx' hy'

theorem nodup_map_of {β γ δ : Type} (f : β → γ) (g : β → δ) (l : List β) (h : (l.map f).Nodup)
    (e : ∀ x ∈ l, ∀ y ∈ l, g x = g y → f x = f y) : (l.map g).Nodup := by
  induction l with
  | nil => simp
  | cons a l ih =>
    simp only [List.map_cons, List.nodup_cons, List.mem_map, not_exists, not_and] at h ⊢
    refine ⟨fun x hx he => h.1 x hx (e _ (List.mem_cons_of_mem _ hx) _ List.mem_cons_self he), ih h.2 fun x hx y hy =>
      e x (List.mem_cons_of_mem _ hx) y (List.mem_cons_of_mem _ hy)⟩

theorem read_length (E : Env τ α κ) (p : Meta τ) (b : Bool) (l : Length) :
    Key.read E .length p = .ok (b, l) ↔ SaysLength E.syn E.usize p l ∧ b = decide (p.name = some "byte_length") := by
  simp only [Key.read, map_ok_iff, metaLength_ok, Prod.mk.injEq]
  constructor
  · rintro ⟨x, h, e, rfl⟩; exact ⟨h, e.symm⟩
  · rintro ⟨h, e⟩; exact ⟨l, h, e.symm, rfl⟩

theorem utf8_iff (E : Env τ α κ) (m : Meta τ) (a : Utf8Attribute) :
    utf8Attribute E m = .ok a ↔ ∃ ps, Gives E.syn m ps ∧ WellFormed ["char_length", "byte_length", "serde", "rocket"] ps ∧
      SaysText E.syn E.usize ps a.length ∧
      Set ps "serde" (SaysFlags E.syn E.serde "Serialize" "Deserialize") ⟨true, true⟩ a.serde ∧
      Set ps "rocket" (SaysFlags E.syn E.rocket "FromFormField" "FromParam") ⟨true, true⟩ a.rocket := by
  simp only [utf8Attribute, map_ok_iff, params_ok]
  have key := utf8_key E
  generalize hT : table E [("char_length", .length), ("byte_length", .length), ("serde", .serde), ("rocket", .rocket)] = T at key
  have hT' : table E (("char_length", Key.length) :: ("byte_length", Key.length) :: serdeRocket) = T := hT
  have hread : T.read = Key.read E := by rw [← hT]; rfl
  rw [hT']
  have kserde : ∀ p, T.keyOf p = some .serde ↔ p.name = some "serde" := fun p => by rw [key]; simp
  have krocket : ∀ p, T.keyOf p = some .rocket ↔ p.name = some "rocket" := fun p => by rw [key]; simp
  have klength : ∀ p, T.keyOf p = some .length ↔ p.name = some "char_length" ∨ p.name = some "byte_length" := fun p => by
    rw [key]; simp
  constructor
  · rintro ⟨s, ⟨ps, hg, hr⟩, rfl⟩
    obtain ⟨good, nd, -⟩ := (run_isOk T ps _).1 ⟨s, hr⟩
    have hh := run_holds T ps _ s hr
    refine ⟨ps, hg, ⟨fun p hp => ?_, ?_⟩, ?_, ?_, ?_⟩
    · obtain ⟨k, e, -⟩ := good p hp
      rcases (key p k).1 e with ⟨h, -⟩ | ⟨h, -⟩ | ⟨h, -⟩ | ⟨h, -⟩ <;> exact ⟨_, by simp, h⟩
    · refine nodup_map_of _ _ ps nd fun x _ y _ e => ?_
      unfold Table.keyOf; rw [e]
    · rcases hh .length with ⟨p, hp, e, ⟨b, l⟩, hv, e'⟩ | ⟨hno, e⟩
      · rw [hread, read_length] at hv
        have only : ∀ q ∈ ps, q.name = some "char_length" ∨ q.name = some "byte_length" → q = p := fun q hq h =>
          nodup_map_inj _ ps nd q p hq hp (((klength q).2 h).trans e.symm)
        rw [e']
        refine .inr ⟨p, hp, b, l, rfl, hv.1, ?_, only⟩
        rw [hv.2]
        rcases (klength p).1 e with h | h <;> simp [h]
      · exact .inl ⟨e, fun q hq => ⟨fun h => hno q hq ((klength q).2 (.inl h)), fun h => hno q hq ((klength q).2 (.inr h))⟩⟩
    · refine (set_iff ..).2 ⟨s .serde, ?_, rfl⟩
      rcases hh .serde with ⟨p, hp, e, v, hv, e'⟩ | ⟨hno, e⟩
      · rw [hread] at hv
        exact .inl ⟨p, hp, (kserde p).1 e, v, e', (metaFlags_ok E.syn E.serde "Serialize" "Deserialize" (by simp) p v).1 hv⟩
      · exact .inr ⟨fun p hp h => hno p hp ((kserde p).2 h), e⟩
    · refine (set_iff ..).2 ⟨s .rocket, ?_, rfl⟩
      rcases hh .rocket with ⟨p, hp, e, v, hv, e'⟩ | ⟨hno, e⟩
      · rw [hread] at hv
        exact .inl ⟨p, hp, (krocket p).1 e, v, e', (metaFlags_ok E.syn E.rocket "FromFormField" "FromParam" (by simp) p v).1 hv⟩
      · exact .inr ⟨fun p hp h => hno p hp ((krocket p).2 h), e⟩
  · rintro ⟨ps, hg, ⟨hk, nd⟩, ht, h1, h2⟩
    obtain ⟨o1, h1, e1⟩ := (set_iff ..).1 h1
    obtain ⟨o2, h2, e2⟩ := (set_iff ..).1 h2
    have uniq : ∀ p ∈ ps, ∀ q ∈ ps, p.name = q.name → p = q := fun p hp q hq e => nodup_map_inj _ ps nd p q hp hq e
    have hok : (run T ps (State.init (Key.Val α κ))).IsOk := by
      rw [run_isOk]
      refine ⟨fun p hp => ?_, nodup_map_of _ _ ps nd fun x hx y hy e => ?_, fun _ _ _ _ => rfl⟩
      · obtain ⟨n, hn, e⟩ := hk p hp
        simp only [List.mem_cons, List.not_mem_nil, or_false] at hn
        have len : p.name = some "char_length" ∨ p.name = some "byte_length" → T.Good p := fun h => by
          rcases ht with ⟨-, hno⟩ | ⟨q, hq, b, l, -, hs, -, only⟩
          · exact absurd h (not_or.2 (hno p hp))
          · cases only p hp h
            exact ⟨.length, (klength p).2 h, (decide (p.name = some "byte_length"), l), by rw [hread, read_length]; exact ⟨hs, rfl⟩⟩
        rcases hn with rfl | rfl | rfl | rfl
        · exact len (.inl e)
        · exact len (.inr e)
        · rcases h1 with ⟨q, hq, eq, v, -, hv⟩ | ⟨hno, -⟩
          · cases uniq p hp q hq (e.trans eq.symm)
            exact ⟨.serde, (kserde p).2 e, v, by
              rw [hread]; exact (metaFlags_ok E.syn E.serde "Serialize" "Deserialize" (by simp) p v).2 hv⟩
          · exact absurd e (hno p hp)
        · rcases h2 with ⟨q, hq, eq, v, -, hv⟩ | ⟨hno, -⟩
          · cases uniq p hp q hq (e.trans eq.symm)
            exact ⟨.rocket, (krocket p).2 e, v, by
              rw [hread]; exact (metaFlags_ok E.syn E.rocket "FromFormField" "FromParam" (by simp) p v).2 hv⟩
          · exact absurd e (hno p hp)
      · obtain ⟨n, hn, en⟩ := hk x hx
        simp only [List.mem_cons, List.not_mem_nil, or_false] at hn
        have len : x.name = some "char_length" ∨ x.name = some "byte_length" → x.name = y.name := fun h => by
          have h' := (klength y).1 (e ▸ (klength x).2 h)
          rcases ht with ⟨-, hno⟩ | ⟨q, hq, b, l, -, hs, -, only⟩
          · exact absurd h (not_or.2 (hno x hx))
          · rw [only x hx h, only y hy h']
        rcases hn with rfl | rfl | rfl | rfl
        · exact len (.inl en)
        · exact len (.inr en)
        · rw [en, (kserde y).1 (e ▸ (kserde x).2 en)]
        · rw [en, (krocket y).1 (e ▸ (krocket x).2 en)]
    obtain ⟨s, hs⟩ := hok
    have hh := run_holds T ps _ s hs
    refine ⟨s, ⟨ps, hg, hs⟩, ?_⟩
    have f0 : (s .length : Option (Bool × Length)) = a.length := by
      rcases hh .length with ⟨p, hp, e, ⟨b, l⟩, hv, e'⟩ | ⟨hno, e⟩
      · rw [e']
        rw [hread, read_length] at hv
        have hp' := (klength p).1 e
        rcases ht with ⟨-, hno⟩ | ⟨q, hq, b', l', ea, hs', hb', only⟩
        · exact absurd hp' (not_or.2 (hno p hp))
        · rw [ea]
          cases only p hp hp'
          have hl : l = l' := by
            have h1 := (metaLength_ok E.syn E.usize p l).2 hv.1
            rw [(metaLength_ok E.syn E.usize p l').2 hs'] at h1
            exact (Out.ok.inj h1).symm
          have hb : b = b' := by
            rw [hv.2]
            cases b' <;> simp_all
          rw [hl, hb]
      · rcases ht with ⟨ea, -⟩ | ⟨q, hq, b', l', ea, hs', hb', only⟩
        · exact e.trans ea.symm
        · refine absurd ((klength q).2 ?_) (hno q hq)
          cases b' <;> simp_all
    have f1 : s .serde = o1 := by
      rcases hh .serde with ⟨p, hp, e, v, hv, e'⟩ | ⟨hno, e⟩ <;> rcases h1 with ⟨q, hq, eq, w, ew, hw⟩ | ⟨hno', ew⟩
      · cases uniq p hp q hq (((kserde p).1 e).trans eq.symm)
        rw [hread] at hv
        have hw := (metaFlags_ok E.syn E.serde "Serialize" "Deserialize" (by simp) p w).2 hw
        rw [e', ew]; congr 1
        exact Out.ok.inj (hv.symm.trans hw)
      · exact absurd ((kserde p).1 e) (hno' p hp)
      · exact absurd ((kserde q).2 eq) (hno q hq)
      · exact e.trans ew.symm
    have f2 : s .rocket = o2 := by
      rcases hh .rocket with ⟨p, hp, e, v, hv, e'⟩ | ⟨hno, e⟩ <;> rcases h2 with ⟨q, hq, eq, w, ew, hw⟩ | ⟨hno', ew⟩
      · cases uniq p hp q hq (((krocket p).1 e).trans eq.symm)
        rw [hread] at hv
        have hw := (metaFlags_ok E.syn E.rocket "FromFormField" "FromParam" (by simp) p w).2 hw
        rw [e', ew]; congr 1
        exact Out.ok.inj (hv.symm.trans hw)
      · exact absurd ((krocket p).1 e) (hno' p hp)
      · exact absurd ((krocket q).2 eq) (hno q hq)
      · exact e.trans ew.symm
    cases a; rw [f0, f1, f2]; congr 1 <;> symm <;> assumption

/-! ## Order -/

omit [DecidableEq κ] in
theorem gives_inj (syn : Syn τ) (m : Meta τ) (ps qs : List (Meta τ)) (h : Gives syn m ps) (h' : Gives syn m qs) : ps = qs := by
  rcases h with ⟨⟨n, rfl⟩, rfl⟩ | ⟨n, t, rfl, h⟩ <;> rcases h' with ⟨⟨n', e⟩, rfl⟩ | ⟨n', t', e, h'⟩ <;> simp_all

/-- A relation that does not depend on the order. -/
def PermInv {β γ : Type} (R : List β → γ → Prop) : Prop := ∀ ps qs a, ps.Perm qs → R ps a → R qs a

theorem orderFree_of {β : Type} (syn : Syn τ) (f : Meta τ → Out AttrError β) (R : List (Meta τ) → β → Prop) (hR : PermInv R)
    (h : ∀ m a, f m = .ok a ↔ ∃ ps, Gives syn m ps ∧ R ps a) : OrderFree syn f := by
  intro m m' ps ps' a hg hg' hp hf
  obtain ⟨qs, hq, hr⟩ := (h m a).1 hf
  cases gives_inj syn m ps qs hg hq
  exact (h m' a).2 ⟨ps', hg', hR _ _ _ hp hr⟩

theorem perm_wf (names : List String) (ps qs : List (Meta τ)) (hp : ps.Perm qs) (h : WellFormed names ps) : WellFormed names qs :=
  ⟨fun p hp' => h.1 p (hp.mem_iff.2 hp'), (hp.map Meta.name).nodup_iff.1 h.2⟩

theorem perm_set {β : Type} (n : String) (Says : Meta τ → β → Prop) (d v : β) (ps qs : List (Meta τ)) (hp : ps.Perm qs)
    (h : Set ps n Says d v) : Set qs n Says d v := by
  rcases h with ⟨p, hp', h⟩ | ⟨h, e⟩
  · exact .inl ⟨p, hp.mem_iff.1 hp', h⟩
  · exact .inr ⟨fun p hp' => h p (hp.mem_iff.2 hp'), e⟩

theorem perm_text (syn : Syn τ) (usize : List UInt8 → Option Nat) (v : Option (Bool × Length)) (ps qs : List (Meta τ)) (hp : ps.Perm qs)
    (h : SaysText syn usize ps v) : SaysText syn usize qs v := by
  rcases h with ⟨e, h⟩ | ⟨p, hp', b, l, e, h1, h2, h3⟩
  · exact .inl ⟨e, fun p hp' => h p (hp.mem_iff.2 hp')⟩
  · exact .inr ⟨p, hp.mem_iff.1 hp', b, l, e, h1, h2, fun q hq => h3 q (hp.mem_iff.2 hq)⟩

theorem base_order (E : Env τ α κ) : OrderFree E.syn (baseAttribute E) := by
  refine orderFree_of E.syn _ _ ?_ (base_iff E)
  rintro ps qs a hp ⟨hw, h0, h1, h2⟩
  exact ⟨perm_wf _ _ _ hp hw, perm_set _ _ _ _ _ _ hp h0, perm_set _ _ _ _ _ _ hp h1, perm_set _ _ _ _ _ _ hp h2⟩

theorem basic_order (E : Env τ α κ) : OrderFree E.syn (basicAttribute E) := by
  refine orderFree_of E.syn _ _ ?_ (basic_iff E)
  rintro ps qs a hp ⟨hw, h0, h1⟩
  exact ⟨perm_wf _ _ _ hp hw, perm_set _ _ _ _ _ _ hp h0, perm_set _ _ _ _ _ _ hp h1⟩

theorem url_order (E : Env τ α κ) : OrderFree E.syn (urlAttribute E) := by
  refine orderFree_of E.syn _ _ ?_ (url_iff E)
  rintro ps qs a hp ⟨hw, h0, h1, h2⟩
  exact ⟨perm_wf _ _ _ hp hw, perm_set _ _ _ _ _ _ hp h0, perm_set _ _ _ _ _ _ hp h1, perm_set _ _ _ _ _ _ hp h2⟩

theorem ip_order (E : Env τ α κ) : OrderFree E.syn (ipAttribute E) := by
  refine orderFree_of E.syn _ _ ?_ (ip_iff E)
  rintro ps qs a hp ⟨hw, h0, h1, h2, h3⟩
  exact ⟨perm_wf _ _ _ hp hw, perm_set _ _ _ _ _ _ hp h0, perm_set _ _ _ _ _ _ hp h1, perm_set _ _ _ _ _ _ hp h2, perm_set _ _ _ _ _ _ hp h3⟩

theorem range_order (E : Env τ α κ) : OrderFree E.syn (rangeAttribute E) := by
  refine orderFree_of E.syn _ _ ?_ (range_iff E)
  rintro ps qs a hp ⟨hw, h0, h1, h2⟩
  exact ⟨perm_wf _ _ _ hp hw, perm_set _ _ _ _ _ _ hp h0, perm_set _ _ _ _ _ _ hp h1, perm_set _ _ _ _ _ _ hp h2⟩

theorem bit_order (E : Env τ α κ) : OrderFree E.syn (bitAttribute E) := by
  refine orderFree_of E.syn _ _ ?_ (bit_iff E)
  rintro ps qs a hp ⟨hw, h0, h1, h2⟩
  exact ⟨perm_wf _ _ _ hp hw, perm_set _ _ _ _ _ _ hp h0, perm_set _ _ _ _ _ _ hp h1, perm_set _ _ _ _ _ _ hp h2⟩

theorem byte_order (E : Env τ α κ) : OrderFree E.syn (byteAttribute E) := by
  refine orderFree_of E.syn _ _ ?_ (byte_iff E)
  rintro ps qs a hp ⟨hw, h0, h1, h2, h3⟩
  exact ⟨perm_wf _ _ _ hp hw, perm_set _ _ _ _ _ _ hp h0, perm_set _ _ _ _ _ _ hp h1, perm_set _ _ _ _ _ _ hp h2, perm_set _ _ _ _ _ _ hp h3⟩

theorem domain_order (E : Env τ α κ) : OrderFree E.syn (domainAttribute E) := by
  refine orderFree_of E.syn _ _ ?_ (domain_iff E)
  rintro ps qs a hp ⟨hw, h0, h1, h2, h3, h4, h5, h6⟩
  exact ⟨perm_wf _ _ _ hp hw, perm_set _ _ _ _ _ _ hp h0, perm_set _ _ _ _ _ _ hp h1, perm_set _ _ _ _ _ _ hp h2, perm_set _ _ _ _ _ _ hp h3, perm_set _ _ _ _ _ _ hp h4, perm_set _ _ _ _ _ _ hp h5, perm_set _ _ _ _ _ _ hp h6⟩

theorem email_order (E : Env τ α κ) : OrderFree E.syn (emailAttribute E) := by
  refine orderFree_of E.syn _ _ ?_ (email_iff E)
  rintro ps qs a hp ⟨hw, h0, h1, h2, h3, h4, h5, h6, h7⟩
  exact ⟨perm_wf _ _ _ hp hw, perm_set _ _ _ _ _ _ hp h0, perm_set _ _ _ _ _ _ hp h1, perm_set _ _ _ _ _ _ hp h2, perm_set _ _ _ _ _ _ hp h3, perm_set _ _ _ _ _ _ hp h4, perm_set _ _ _ _ _ _ hp h5, perm_set _ _ _ _ _ _ hp h6, perm_set _ _ _ _ _ _ hp h7⟩

theorem host_order (E : Env τ α κ) : OrderFree E.syn (hostAttribute E) := by
  refine orderFree_of E.syn _ _ ?_ (host_iff E)
  rintro ps qs a hp ⟨hw, h0, h1, h2, h3, h4⟩
  exact ⟨perm_wf _ _ _ hp hw, perm_set _ _ _ _ _ _ hp h0, perm_set _ _ _ _ _ _ hp h1, perm_set _ _ _ _ _ _ hp h2, perm_set _ _ _ _ _ _ hp h3, perm_set _ _ _ _ _ _ hp h4⟩

theorem hex_order (sep : Char) (E : Env τ α κ) : OrderFree E.syn (hexAttribute sep E) := by
  refine orderFree_of E.syn _ _ ?_ (hex_iff sep E)
  rintro ps qs a hp ⟨hw, h0, h1, h2, h3⟩
  exact ⟨perm_wf _ _ _ hp hw, perm_set _ _ _ _ _ _ hp h0, perm_set _ _ _ _ _ _ hp h1, perm_set _ _ _ _ _ _ hp h2, perm_set _ _ _ _ _ _ hp h3⟩

theorem number_order (E : Env τ α κ) : OrderFree E.syn (numberAttribute E) := by
  refine orderFree_of E.syn _ _ ?_ (number_iff E)
  rintro ps qs a hp ⟨hw, h0, h1, h2, h3, h4⟩
  exact ⟨perm_wf _ _ _ hp hw, perm_set _ _ _ _ _ _ hp h0, perm_set _ _ _ _ _ _ hp h1, perm_set _ _ _ _ _ _ hp h2, perm_set _ _ _ _ _ _ hp h3, perm_set _ _ _ _ _ _ hp h4⟩

theorem phone_order (E : Env τ α κ) : OrderFree E.syn (phoneAttribute E) := by
  refine orderFree_of E.syn _ _ ?_ (phone_iff E)
  rintro ps qs a hp ⟨hw, h0, h1, h2⟩
  exact ⟨perm_wf _ _ _ hp hw, perm_set _ _ _ _ _ _ hp h0, perm_set _ _ _ _ _ _ hp h1, perm_set _ _ _ _ _ _ hp h2⟩

theorem length_order (E : Env τ α κ) : OrderFree E.syn (lengthAttribute E) := by
  refine orderFree_of E.syn _ _ ?_ (length_iff E)
  rintro ps qs a hp ⟨hw, h0, h1, h2, h3⟩
  exact ⟨perm_wf _ _ _ hp hw, perm_set _ _ _ _ _ _ hp h0, perm_set _ _ _ _ _ _ hp h1, perm_set _ _ _ _ _ _ hp h2, h3⟩

theorem regex_order (E : Env τ α κ) : OrderFree E.syn (regexAttribute E) := by
  refine orderFree_of E.syn _ _ ?_ (regex_iff E)
  rintro ps qs a hp ⟨hw, h0, h1, h2⟩
  exact ⟨perm_wf _ _ _ hp hw, perm_set _ _ _ _ _ _ hp h0, perm_set _ _ _ _ _ _ hp h1, perm_set _ _ _ _ _ _ hp h2⟩

theorem utf8_order (E : Env τ α κ) : OrderFree E.syn (utf8Attribute E) := by
  refine orderFree_of E.syn _ _ ?_ (utf8_iff E)
  rintro ps qs a hp ⟨hw, h0, h1, h2⟩
  exact ⟨perm_wf _ _ _ hp hw, perm_text _ _ _ _ _ hp h0, perm_set _ _ _ _ _ _ hp h1, perm_set _ _ _ _ _ _ hp h2⟩

end Verif.Attr
