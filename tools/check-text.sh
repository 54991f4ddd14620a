#!/bin/sh
# Compares the Go text in lean/Verif/Source with the files of the repository, given as argument (default /repo).
repo=${1:-/repo}
here=$(dirname "$0")/../lean/Verif/Source
status=0
check() {
	sed -n '/^go_file/,/^"#/p' "$here/$1" | sed '1s/^go_file [a-z0-9]* := r#"//; $d' >/tmp/text.$$
	cmp "$repo/$2" /tmp/text.$$ || status=1
	rm -f /tmp/text.$$
}
check Edwards.lean signify/internal/edwards25519/edwards25519.go
check EdConst.lean signify/internal/edwards25519/const.go
check TextCoding.lean base64/coding.go
check TextCrypto.lean crypto/crypto.go
check TextCommon.lean signify/common.go
check TextSignature.lean signify/signature.go
check TextKey.lean signify/key.go
check TextMain.lean cmd/psignify/main.go
exit $status
