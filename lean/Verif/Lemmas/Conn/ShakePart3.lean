import Verif.Lemmas.Conn.ShakeLevels

/- Exploration of the abstract handshake, part 3 of 5. -/

namespace M3.Conn.Shake

theorem part3 : later 6 level60 = some level66 := by decide +kernel

end M3.Conn.Shake
