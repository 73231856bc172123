import Verif.Mslookup.Base
/-!
# Times: `src/timestamp.c` and the time columns of the database
-/
namespace Verif.Mslookup
open Verif Verif.Sys

/-- What `mktime()` makes of the broken-down UTC time of `t` (libc): the time at which the
local clock, without daylight saving (gmtime_r() and strptime() leave `tm_isdst` 0), shows
these digits; -1 if there is none. -/
abbrev Zone := Int → Int

/-- timestamp_update (timestamp.c 24-35) at time `now`. -/
def timestampUpdate (z : Zone) (now : Int) : Int := z now

/-- timestamp_age (timestamp.c 40-52) at time `now`. -/
def timestampAgeAt (z : Zone) (now ts : Int) : Bool × Nat := timestampAge (timestampUpdate z now) ts

/-- parse_last_lu_seen (db_hlr.c 446-468): the column holds the UTC digits of the time
that db_subscr_lu() passed to SQLite's `datetime()` (db_hlr.c 883-897, db.c 92-93), which can
always be parsed for years up to 9999. -/
def parseLastLu (z : Zone) (t : Option Int) : Int :=
  match t with
  | none => 0
  | some t => if z t = -1 then 0 else z t

end Verif.Mslookup
