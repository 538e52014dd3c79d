import Verif.Lemmas.Conn.ShakeLevels

/- Exploration of the abstract handshake, part 4 of 5. -/

namespace M3.Conn.Shake

theorem part4 : later 5 level66 = some level71 := by decide +kernel

end M3.Conn.Shake
