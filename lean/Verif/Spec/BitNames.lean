import Verif.Msgs.Algorithms
import Verif.Msgs.Capabilities
/-!
# Names of algorithms and capabilities, with their bit (DSP0274)
-/
namespace Spdm.Spec

def asymNames : List (String × Nat) :=
  [("RSASSA_2048", 0), ("RSAPSS_2048", 1), ("RSASSA_3072", 2), ("RSAPSS_3072", 3), ("ECDSA_ECC_NIST_P256", 4), ("RSASSA_4096", 5), ("RSAPSS_4096", 6),
    ("ECDSA_ECC_NIST_P384", 7), ("ECDSA_ECC_NIST_P521", 8)]

def hashNames : List (String × Nat) := [("SHA_256", 0), ("SHA_384", 1), ("SHA_512", 2), ("SHA3_256", 3), ("SHA3_384", 4), ("SHA3_512", 5)]

/-- Requester capabilities that can be configured by name: without the second bit of PSK_CAP. -/
def reqFlagNames : List (String × Nat) :=
  [("CERT_CAP", 1), ("CHAL_CAP", 2), ("ENCRYPT_CAP", 6), ("MAC_CAP", 7), ("MUT_AUTH_CAP", 8), ("KEY_EX_CAP", 9), ("PSK_CAP", 10), ("ENCAP_CAP", 12), ("HBEAT_CAP", 13),
    ("KEY_UPD_CAP", 14), ("HANDSHAKE_IN_THE_CLEAR_CAP", 15), ("PUB_KEY_ID_CAP", 16)]

/-- Responder capabilities: CACHE_CAP and MEAS_FRESH_CAP too; without the two bits of MEAS_CAP. -/
def rspFlagNames : List (String × Nat) := [("CACHE_CAP", 0), ("MEAS_FRESH_CAP", 5)] ++ reqFlagNames

/-- `parse` accepts exactly the names of the table, each as the word with its bit. -/
def NamesBits (parse : String → Res UInt32) (table : List (String × Nat)) : Prop :=
  ∀ s, (∃ k w, (s, k) ∈ table ∧ parse s = .ok w ∧ w.toNat = 2 ^ k) ∨ ((∀ k, (s, k) ∉ table) ∧ parse s = .err .parseName)

end Spdm.Spec
