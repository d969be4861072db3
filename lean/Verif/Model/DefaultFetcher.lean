import Verif.Model.DoH
import Verif.Model.Options

/-!
# The key fetcher of the default options
-/

set_option autoImplicit false

namespace Goe2ee

/-- key/client_fetcher.go:24 -/
def googleDNSProvider : Bytes := str "https://dns.google/resolve"

/-- key/client_fetcher.go:79-87: `ClientFetcherDNSKEY.Fetch` with the provider, as a function of the host.  Each call
makes its own HTTP client.  (`RetrievePublicKey` does not panic, `C146_exchange`.) -/
def dnskeyFetcher (env : DoHEnv) (provider : Bytes) : Fetcher := fun domain =>
  match ((dohFetch provider domain).run (dohExec env) {}).1 with
  | .val r => r
  | .panic m => .error (.other m)

/-- client.go:58: the key fetcher of a client without options. -/
def defaultFetcher (env : DoHEnv) : Fetcher := dnskeyFetcher env googleDNSProvider

end Goe2ee
