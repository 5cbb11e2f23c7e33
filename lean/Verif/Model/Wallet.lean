import Verif.Model.Crypto

/-!
# Wallet start-up

libs/go/aealite/wallet/wallet.go:47-82.

`env` is the environment after `godotenv.Overload` (an absent variable is empty), `none` if the
file could not be loaded. `log.Fatal` ends the process. `publicKeyOf` is
`FetchAIPublicKeyFromPrivateKey`, the only entry of `publicKeyFromPrivateKeyTable`
(wallet/utils.go:44-46).
-/

namespace Verif

/-- The wallet. -/
structure Wallet where
  ledgerId : Bytes
  address : Bytes
  publicKey : Bytes
  privateKey : Bytes
  deriving DecidableEq, Repr

/-- How start-up can end other than with a wallet. -/
inductive WalletErr where
  | envFile        -- the error return, wallet.go:53
  | fatal          -- `log.Fatal`
  deriving DecidableEq, Repr

/-- `PublicKeyFromPrivateKey`: wallet/utils.go:63-68 -/
def publicKeyOfLedger (publicKeyOf : Bytes → Option Bytes) (ledger priv : Bytes) : Option Bytes :=
  if ledger = b! "fetchai" then publicKeyOf priv else none

/-- `InitFromEnv`: wallet.go:47-82. `addressOf` is `AddressFromPublicKey` (wallet/utils.go:55-60),
which has the table of `addressOf`. -/
def walletInit (P : Prims) (publicKeyOf : Bytes → Option Bytes) (env : Option (Bytes → Bytes)) :
    Res WalletErr Wallet :=
  match env with
  | none => .err .envFile
  | some env =>
    let ledger := env (b! "AEA_LEDGER_ID")
    if ledger = [] then .err .fatal
    else
      let address := env (b! "AEA_ADDRESS")
      let publicKey := env (b! "AEA_PUBLIC_KEY")
      let priv := env (b! "AEA_PRIVATE_KEY")
      if priv = [] then .err .fatal
      else match publicKeyOfLedger publicKeyOf ledger priv with
        | none => .err .fatal
        | some pk =>
          if publicKey ≠ [] ∧ pk ≠ publicKey then .err .fatal
          else match addressOf P ledger pk with
            | .panic => .panic
            | .err _ => .err .fatal
            | .ok a =>
              if address ≠ [] ∧ a ≠ address then .err .fatal
              else .ok ⟨ledger, a, pk, priv⟩

end Verif
