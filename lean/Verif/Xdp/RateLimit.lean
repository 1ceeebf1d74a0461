import Verif.Bpf
/- The rate limiter: cmd/ebpf/xdp/qer.h. -/
namespace Eupf

/-- cmd/ebpf/xdp/qer.h 67-90 `limit_rate_sliding_window`: `none` = XDP_DROP, `some s` = XDP_PASS with the timer
set to `s`. 64-bit arithmetic. -/
def limitRate (size start rate now : U64) : Option U64 :=
  if rate = 0 then some start
  else
    let tx := size * 8 * (1000000000 / rate)
    if start + tx > now then none
    else if start + 5000000 < now then some (now - 5000000 + tx)
    else some (start + tx)

end Eupf
