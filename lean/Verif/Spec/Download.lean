import Verif.Model.Download

/-!
# Specification for the downloads
-/

namespace Verif

variable {C : Type}

/-- The names of the files and folders are different. -/
structure Peptides.Proper (p : Peptides) : Prop where
  folder_raw : p.folder ≠ "raw"
  folder_root : p.folder ≠ ""
  raw : p.rawUrl ≠ p.rawName
  splits : p.splitUrl ≠ p.splitName
  tag_url : p.version ≠ p.splitUrl
  tag_name : p.version ≠ p.splitName

/-- The urls serve the files they should. -/
def Peptides.Served (p : Peptides) (md5 : C → String) (v : Visit C) : Prop :=
  md5 v.raw = p.version ∧ md5 v.splits = p.splitVersion

/-- A disk without the files of the dataset. -/
def Peptides.Fresh (p : Peptides) (d : RawDisk C) : Prop :=
  d.files ("raw", p.rawUrl) = none ∧ d.files ("raw", p.rawName) = none ∧ d.files ("", p.splitUrl) = none ∧
    d.files ("", p.splitName) = none

/-- The downloaded table or the downloaded splits have a wrong hash. -/
def Peptides.Corrupt (p : Peptides) (md5 : C → String) (d : RawDisk C) : Prop :=
  d.files ("raw", p.rawName) = none ∧
    ((∃ c, d.files ("raw", p.rawUrl) = some c ∧ md5 c ≠ p.version) ∨
      ∃ c, d.files ("", p.splitUrl) = some c ∧ md5 c ≠ p.splitVersion)

end Verif
