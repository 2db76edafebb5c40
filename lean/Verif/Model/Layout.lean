/-!
# Record layouts

Sizes in bytes of the flattened fields, in declaration order (listed by tools/layout.py from the Go
declarations).
-/
namespace Dparm.Layout

/-- tcg/types.go:42-48 `Discovery0Header`. -/
def header : List Nat :=
  [4, 4, 4, 4, 16]

/-- tcg/types.go:50-56 `Discovery0BasicFeature`. -/
def basic : List Nat :=
  [2, 1, 1]

/-- tcg/types.go:61-77 `Discovery0TPerFeature`. -/
def tper : List Nat :=
  [2, 1, 1, 1, 4, 4, 4]

/-- tcg/types.go:82-98 `Discovery0LockingFeature`. -/
def locking : List Nat :=
  [2, 1, 1, 1, 4, 4, 4]

/-- tcg/types.go:103-114 `Discovery0GeometryReportingFeature`. -/
def geometry : List Nat :=
  [2, 1, 1, 1, 7, 4, 8, 8]

/-- tcg/types.go:119-125 `Discovery0OpalSSCFeatureV100`. -/
def opalV100 : List Nat :=
  [2, 1, 1, 2, 2]

/-- tcg/types.go:131-144 `Discovery0OpalSSCFeatureV200`. -/
def opalV200 : List Nat :=
  [2, 1, 1, 2, 2, 1, 2, 2, 1, 1, 1, 4]

/-- tcg/types.go:149-160 `Discovery0EnterpriseSSCFeature`. -/
def enterprise : List Nat :=
  [2, 1, 1, 2, 2, 1, 1, 2, 4, 4]

/-- tcg/types.go:165-174 `Discovery0SingleUserModeFeature`. -/
def singleUser : List Nat :=
  [2, 1, 1, 4, 1, 1, 2, 4]

/-- tcg/types.go:179-187 `Discovery0DataStoreTableFeature`. -/
def dataStore : List Nat :=
  [2, 1, 1, 2, 2, 4, 4]

/-- ata/types.go:302-463 `IdentityDeviceData` (nested records flattened). -/
def ataIdentity : List Nat :=
  [1, 1, 2, 2, 2, 4, 2, 6, 20, 4, 2, 8, 40, 1, 1, 2, 2, 2, 4, 1, 1, 2, 2, 2, 4, 1, 1, 4, 2, 1, 1, 1,
   1, 2, 2, 2, 2, 2, 10, 2, 2, 2, 2, 2, 2, 2, 2, 2, 2, 2, 2, 2, 1, 1, 2, 2, 1, 1, 2, 2, 1, 1, 2, 2,
   2, 4, 8, 2, 2, 2, 2, 8, 8, 2, 4, 2, 2, 12, 2, 2, 62, 2, 14, 2, 2, 8, 4, 60, 2, 4, 2, 4, 4, 2, 2,
   2, 2, 2, 2, 1, 1, 2, 2, 2, 12, 8, 2, 2, 38, 1, 1]

/-- nvme/types.go:301-317 `IdentifyPowerState`. -/
def powerState : List Nat := [2, 1, 1, 4, 4, 1, 1, 1, 1, 2, 1, 1, 2, 1, 9]

/-- nvme/types.go:325-411 `IdentifyController`: the fields before `Psd`, 32 power states, `Vs`. -/
def nvmeIdentity : List Nat :=
  [2, 2, 20, 40, 8, 1, 3, 1, 1, 2, 1, 1, 2, 4, 4, 4, 4, 2, 9, 1, 16, 2, 2, 2, 122, 2, 1, 1, 1, 1, 1,
   1, 1, 1, 2, 2, 2, 4, 4, 16, 16, 4, 2, 1, 1, 2, 2, 2, 2, 4, 4, 2, 2, 2, 1, 1, 4, 4, 4, 156, 1, 1,
   2, 4, 2, 2, 1, 1, 2, 2, 1, 1, 2, 2, 4, 4, 224, 256, 768, 4, 4, 2, 1, 1, 244]
    ++ (List.replicate 32 powerState).flatten ++ [1024]

end Dparm.Layout
