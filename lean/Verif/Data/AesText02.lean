/-!
# Text of `data/circ/aes_128.txt`, part 3 of 4

Generated by `tools/gen_circuits.py`.
-/

namespace Verif.Data

/-- Lines 18437-27652 of `data/circ/aes_128.txt`, 128 per string. -/
def aesBlocks02 : List String := [
"2 1 21747 21750 21831 XOR\n2 1 21793 21746 21829 XOR\n2 1 21743 21744 21827 XOR\n2 1 21828 21865 21826 AND\n2 1 21835 21864 21825 AND\n2 1 21838 33734 21824 AND\n2 1 21824 21826 21806 XOR\n2 1 21829 21859 21823 AND\n2 1 21832 21871 21822 AND\n2 1 21842 21861 21821 AND\n2 1 21821 21822 21760 XOR\n2 1 21830 21862 21820 AND\n2 1 21827 21860 21819 AND\n2 1 21819 21822 21775 XOR\n1 1 21775 21772 INV\n2 1 21819 21820 21771 XOR\n2 1 21831 21863 21818 AND\n2 1 21828 21869 21817 AND\n2 1 21835 21866 21816 AND\n2 1 21838 21870 21815 AND\n2 1 21829 21874 21814 AND\n2 1 21814 21818 21791 XOR\n2 1 21823 21814 21776 XOR\n1 1 21791 21769 INV\n2 1 21832 21867 21813 AND\n2 1 21821 21813 21778 XOR\n2 1 21842 21868 21812 AND\n2 1 21769 21812 21768 XOR\n2 1 21768 21806 21764 XOR\n2 1 21830 21873 21811 AND\n2 1 21811 21764 21767 XOR\n2 1 21827 21875 21810 AND\n2 1 21810 21811 21805 XOR\n2 1 21816 21805 21787 XOR\n2 1 21817 21787 21788 XOR\n2 1 21825 21788 21792 XOR\n2 1 21826 21792 21797 XOR\n2 1 21778 21805 21774 XOR\n2 1 21806 21774 21777 XOR\n2 1 21776 21777 21879 XOR\n2 1 21769 21774 21773 XOR\n2 1 21772 21773 21878 XOR\n2 1 21797 21771 21877 XOR\n2 1 21787 21764 21763 XOR\n2 1 21824 21792 21761 XOR\n2 1 21760 21761 35431 XOR\n2 1 35431 35436 7131 XOR\n2 1 7158 7131 35348 XOR\n2 1 21831 21872 21809 AND\n2 1 21820 21809 21770 XOR\n1 1 21770 21766 INV\n2 1 21766 21767 21876 XOR\n2 1 35437 35431 6861 XOR\n2 1 32786 6563 35176 XOR\n2 1 35176 911 33750 XOR\n2 1 33750 19502 19501 XOR\n2 1 33750 33756 19423 XOR\n2 1 19423 19418 19498 XOR\n2 1 19417 19423 19505 XOR\n2 1 19433 19505 19503 XOR\n2 1 33755 19423 19508 XOR\n2 1 33751 19508 19504 XOR\n2 1 33750 19378 19507 XOR\n2 1 19503 19501 19494 AND\n2 1 19488 19494 19440 XOR\n2 1 19440 19431 19486 XOR\n2 1 19507 33750 19493 AND\n2 1 19487 19493 19445 XOR\n2 1 19445 19417 19432 XOR\n2 1 19440 19432 19483 XOR\n2 1 19426 19445 19394 XOR\n2 1 33755 19394 19437 XOR\n2 1 19508 19504 19491 AND\n2 1 19491 19438 19485 XOR\n2 1 19505 19498 19490 AND\n2 1 19487 19490 19441 XOR\n2 1 19488 19441 19435 XOR\n2 1 19421 19441 19395 XOR\n2 1 19395 19420 19484 XOR\n2 1 19491 19435 19391 XOR\n2 1 33751 19391 19478 XOR\n2 1 19486 19485 19482 AND\n2 1 19482 19437 19477 XOR\n2 1 19482 19484 19481 XOR\n2 1 19483 19481 19480 AND\n2 1 19480 19437 19479 XOR\n2 1 19480 19492 19386 XOR\n2 1 19386 19422 19382 XOR\n2 1 33757 19382 19385 XOR\n2 1 19480 19431 19383 XOR\n2 1 33755 19382 19381 XOR\n2 1 19477 19478 19476 AND\n2 1 19476 19484 19475 XOR\n2 1 19482 19476 19474 XOR\n2 1 19476 19435 19390 XOR\n2 1 19476 19493 19389 XOR\n2 1 19389 19490 19384 XOR\n2 1 19384 19385 19467 XOR\n2 1 19484 19474 19473 AND\n2 1 19473 19481 19471 XOR\n2 1 19473 19491 19444 XOR\n2 1 19444 19438 19465 XOR\n2 1 33751 19444 19427 XOR\n2 1 19427 19390 19472 XOR\n2 1 19479 19471 19470 AND\n2 1 19470 19440 19430 XOR\n2 1 19430 19432 19469 XOR\n2 1 19470 19494 19388 XOR\n2 1 19427 19388 19380 XOR\n2 1 19417 19380 19387 XOR\n2 1 19384 19387 19468 XOR\n2 1 19430 19383 19466 XOR\n2 1 19380 19381 19464 XOR\n2 1 19465 19502 19463 AND\n2 1 19472 19501 19462 AND\n2 1 19475 33750 19461 AND\n2 1 19461 19463 19443 XOR\n2 1 19466 19496 19460 AND\n2 1 19469 19508 19459 AND\n2 1 19479 19498 19458 AND\n2 1 19458 19459 19397 XOR\n2 1 19467 19499 19457 AND\n2 1 19464 19497 19456 AND\n2 1 19456 19459 19412 XOR\n1 1 19412 19409 INV\n2 1 19456 19457 19408 XOR\n2 1 19468 19500 19455 AND\n2 1 19465 19506 19454 AND\n",
"2 1 19472 19503 19453 AND\n2 1 19475 19507 19452 AND\n2 1 19466 19511 19451 AND\n2 1 19451 19455 19428 XOR\n2 1 19460 19451 19413 XOR\n1 1 19428 19406 INV\n2 1 19469 19504 19450 AND\n2 1 19458 19450 19415 XOR\n2 1 19479 19505 19449 AND\n2 1 19406 19449 19405 XOR\n2 1 19405 19443 19401 XOR\n2 1 19467 19510 19448 AND\n2 1 19448 19401 19404 XOR\n2 1 19464 19512 19447 AND\n2 1 19447 19448 19442 XOR\n2 1 19453 19442 19424 XOR\n2 1 19454 19424 19425 XOR\n2 1 19462 19425 19429 XOR\n2 1 19463 19429 19434 XOR\n2 1 19415 19442 19411 XOR\n2 1 19443 19411 19414 XOR\n2 1 19413 19414 19516 XOR\n2 1 19406 19411 19410 XOR\n2 1 19409 19410 19515 XOR\n2 1 19434 19408 19514 XOR\n2 1 19424 19401 19400 XOR\n2 1 19461 19429 19398 XOR\n2 1 19397 19398 35405 XOR\n2 1 35405 35409 7139 XOR\n2 1 7139 6989 6986 XOR\n2 1 7154 7139 35276 XOR\n2 1 6986 6987 35268 XOR\n2 1 35268 892 33769 XOR\n2 1 19468 19509 19446 AND\n2 1 19457 19446 19407 XOR\n1 1 19407 19403 INV\n2 1 19403 19404 19513 XOR\n1 1 19515 35403 INV\n2 1 32928 35403 7126 XOR\n2 1 7140 7139 7004 XOR\n1 1 7004 7002 INV\n2 1 35276 884 33777 XOR\n2 1 7127 7126 7021 XOR\n2 1 35397 7021 35283 XOR\n2 1 35283 877 33784 XOR\n2 1 19515 32887 6873 XOR\n2 1 35405 35398 6871 XOR\n2 1 35348 812 33849 XOR\n1 1 7131 6897 INV\n2 1 6897 7130 6895 XOR\n2 1 6897 7111 6920 XOR\n2 1 17930 17931 32682 XOR\n2 1 32682 17905 35420 XOR\n2 1 35420 35414 6842 XOR\n2 1 6841 6842 7168 XOR\n2 1 7168 7102 35301 XOR\n2 1 35301 859 33802 XOR\n2 1 35415 35420 7110 XOR\n1 1 7110 6951 INV\n2 1 6951 7107 6948 XOR\n2 1 6948 6949 35325 XOR\n2 1 35325 835 33826 XOR\n2 1 7110 7097 6974 XOR\n2 1 32968 6974 35310 XOR\n2 1 35310 850 33811 XOR\n2 1 6950 35420 6965 XOR\n2 1 17927 32682 17907 XOR\n2 1 17923 17907 17873 XOR\n1 1 17873 17870 INV\n2 1 17870 17871 35418 XOR\n2 1 35413 35418 7117 XOR\n2 1 7117 7115 6957 XOR\n2 1 35418 32962 6996 XOR\n2 1 17928 17907 17867 XOR\n2 1 17896 17867 35421 XOR\n2 1 35421 35425 7089 XOR\n2 1 35416 35421 7082 XOR\n1 1 7082 6977 INV\n2 1 7082 32790 6944 XOR\n2 1 6944 6945 35328 XOR\n2 1 6977 35414 6980 XOR\n2 1 6977 32962 6984 XOR\n1 1 7117 6969 INV\n2 1 6969 7107 6979 XOR\n2 1 6969 35426 6967 XOR\n2 1 6967 6968 35315 XOR\n2 1 35422 6957 35323 XOR\n2 1 35323 837 33824 XOR\n2 1 33824 17192 17194 XOR\n2 1 33823 33824 17209 XOR\n2 1 33824 33826 17288 XOR\n2 1 33825 33824 17169 XOR\n2 1 6995 6996 35299 XOR\n2 1 35299 861 33800 XOR\n2 1 33800 19277 19279 XOR\n2 1 33799 33800 19294 XOR\n2 1 33800 33802 19373 XOR\n2 1 33801 33800 19254 XOR\n2 1 6979 6980 35308 XOR\n2 1 35421 6990 35304 XOR\n2 1 35304 856 33805 XOR\n2 1 33802 33805 19371 XOR\n2 1 19371 19294 19367 XOR\n2 1 19277 19371 19363 XOR\n2 1 33805 33799 19372 XOR\n2 1 33805 33800 19370 XOR\n2 1 19363 19367 19356 AND\n2 1 35328 832 33829 XOR\n2 1 33826 33829 17286 XOR\n2 1 17286 17209 17282 XOR\n2 1 17192 17286 17278 XOR\n2 1 33829 33823 17287 XOR\n2 1 33829 33824 17285 XOR\n2 1 17278 17282 17271 AND\n2 1 6977 35415 6976 XOR\n2 1 6975 6976 35309 XOR\n2 1 35315 845 33816 XOR\n2 1 35309 851 33810 XOR\n2 1 33808 33810 16454 XOR\n2 1 7119 7082 6985 XOR\n2 1 32963 6985 35305 XOR\n1 1 7089 6853 INV\n2 1 6853 35428 6851 XOR\n2 1 6851 6852 7163 XOR\n2 1 7163 7110 35317 XOR\n2 1 35317 843 33818 XOR\n2 1 33816 33818 13811 XOR\n2 1 7089 35427 6849 XOR\n",
"2 1 35422 35418 6850 XOR\n2 1 6849 6850 7164 XOR\n2 1 7164 7114 35316 XOR\n2 1 35316 844 33817 XOR\n2 1 33817 33816 13691 XOR\n2 1 7089 32787 6847 XOR\n2 1 35305 855 33806 XOR\n2 1 19459 19460 32693 XOR\n2 1 19456 32693 19436 XOR\n2 1 19457 19436 19396 XOR\n2 1 19452 19436 19402 XOR\n1 1 19402 19399 INV\n2 1 19399 19400 35404 XOR\n1 1 35404 6880 INV\n2 1 35405 6880 6879 XOR\n2 1 35397 35404 7124 XOR\n2 1 19425 19396 35407 XOR\n2 1 35402 35407 7086 XOR\n2 1 7086 35410 6870 XOR\n2 1 6870 6871 7156 XOR\n2 1 7156 7140 35285 XOR\n2 1 35285 875 33786 XOR\n2 1 33784 33786 13951 XOR\n2 1 35407 35412 7084 XOR\n2 1 32886 6880 7059 XOR\n2 1 7058 7059 35275 XOR\n2 1 35275 885 33776 XOR\n2 1 33777 33776 22868 XOR\n1 1 7086 7020 INV\n2 1 7020 35409 7019 XOR\n2 1 7020 32928 7024 XOR\n2 1 7135 7084 7026 XOR\n2 1 35396 7026 35280 XOR\n2 1 35280 880 33781 XOR\n2 1 33781 33776 22984 XOR\n1 1 7124 7007 INV\n2 1 7007 35393 7005 XOR\n2 1 7149 7007 7018 XOR\n2 1 7018 7019 35284 XOR\n2 1 35284 876 33785 XOR\n2 1 33785 33784 13831 XOR\n2 1 32693 19434 35406 XOR\n2 1 35406 35410 7136 XOR\n2 1 7171 7136 35269 XOR\n2 1 35406 35399 7014 XOR\n2 1 35269 891 33770 XOR\n2 1 7031 7136 7029 XOR\n2 1 7137 7136 7001 XOR\n2 1 20710 20711 32702 XOR\n2 1 32702 20685 35464 XOR\n2 1 35460 35464 7095 XOR\n2 1 7104 7095 7075 XOR\n2 1 35464 6883 7073 XOR\n2 1 20707 32702 20687 XOR\n2 1 20703 20687 20653 XOR\n1 1 20653 20650 INV\n2 1 20650 20651 35462 XOR\n2 1 35458 35462 7096 XOR\n2 1 20708 20687 20647 XOR\n2 1 20676 20647 35465 XOR\n2 1 35453 35465 7090 XOR\n2 1 35461 35465 7078 XOR\n1 1 7078 7175 INV\n2 1 7175 35450 7038 XOR\n2 1 7175 32878 7041 XOR\n2 1 7090 32891 6843 XOR\n2 1 7078 35463 6884 XOR\n2 1 6884 6885 7150 XOR\n2 1 7096 32890 6886 XOR\n2 1 7090 35449 6845 XOR\n2 1 35463 35462 6846 XOR\n2 1 6845 6846 7166 XOR\n2 1 21822 21823 32710 XOR\n2 1 32710 21797 35432 XOR\n2 1 16733 35432 6938 XOR\n2 1 6937 6938 35334 XOR\n2 1 35334 826 33835 XOR\n2 1 35432 35437 7123 XOR\n1 1 7123 6894 INV\n2 1 6894 7120 6892 XOR\n2 1 7123 7105 6919 XOR\n2 1 7157 7123 35349 XOR\n2 1 21819 32710 21799 XOR\n2 1 21815 21799 21765 XOR\n1 1 21765 21762 INV\n2 1 21762 21763 35430 XOR\n2 1 35430 35435 7138 XOR\n2 1 21820 21799 21759 XOR\n2 1 21788 21759 35433 XOR\n2 1 35433 35440 7083 XOR\n2 1 35433 35448 7088 XOR\n2 1 7142 7088 6943 XOR\n2 1 7088 35446 6860 XOR\n2 1 32927 6943 35329 XOR\n2 1 35329 831 33830 XOR\n2 1 7138 7134 6898 XOR\n2 1 35441 6898 35355 XOR\n2 1 35355 805 33856 XOR\n2 1 6860 6861 7160 XOR\n2 1 7160 7111 35333 XOR\n2 1 35333 827 33834 XOR\n1 1 7088 6856 INV\n2 1 6856 32860 6854 XOR\n2 1 6856 35445 6857 XOR\n2 1 7094 7083 6889 XOR\n2 1 35444 6889 35360 XOR\n2 1 35360 800 33861 XOR\n2 1 6859 35430 6858 XOR\n2 1 6857 6858 7161 XOR\n2 1 7161 7120 35332 XOR\n2 1 35332 828 33833 XOR\n2 1 7142 7083 6928 XOR\n1 1 7138 6913 INV\n2 1 6913 35445 6911 XOR\n2 1 6911 6912 35347 XOR\n2 1 35347 813 33848 XOR\n2 1 33849 33848 7471 XOR\n2 1 6913 7120 6922 XOR\n2 1 33861 33856 27317 XOR\n2 1 35308 852 33809 XOR\n2 1 33809 33808 16335 XOR\n1 1 17985 32937 INV\n2 1 32937 32965 7099 XOR\n2 1 7099 32790 6991 XOR\n2 1 7099 7097 6946 XOR\n2 1 32961 6946 35327 XOR\n2 1 35327 833 33828 XOR\n2 1 33828 17194 17275 XOR\n",
"2 1 33826 33828 17195 XOR\n2 1 17271 17195 17198 XOR\n2 1 17286 17275 17265 AND\n2 1 17265 17194 17196 XOR\n2 1 17198 17196 17202 XOR\n2 1 33829 17202 17207 XOR\n2 1 7099 7082 6961 XOR\n2 1 35429 6961 35320 XOR\n2 1 35320 840 33821 XOR\n2 1 33818 33821 13809 XOR\n2 1 33821 33816 13808 XOR\n2 1 7081 32937 6971 XOR\n2 1 6971 6972 35312 XOR\n2 1 35312 848 33813 XOR\n2 1 33811 33813 16359 XOR\n2 1 16359 16454 16439 XOR\n2 1 33810 33813 16452 XOR\n2 1 33813 33808 16451 XOR\n2 1 16454 16439 16430 AND\n2 1 6991 6992 35303 XOR\n2 1 35303 857 33804 XOR\n2 1 33804 19279 19360 XOR\n2 1 33802 33804 19280 XOR\n2 1 19356 19280 19283 XOR\n2 1 19371 19360 19350 AND\n2 1 19350 19279 19281 XOR\n2 1 19283 19281 19287 XOR\n2 1 33805 19287 19292 XOR\n1 1 17987 32938 INV\n2 1 32963 32938 7122 XOR\n2 1 7122 7089 6970 XOR\n2 1 32938 6997 35297 XOR\n2 1 35297 863 33798 XOR\n2 1 33798 19363 19362 XOR\n2 1 33798 33804 19284 XOR\n2 1 19284 19279 19359 XOR\n2 1 7122 7115 6983 XOR\n2 1 6983 6984 6982 XOR\n1 1 6982 35306 INV\n2 1 35306 854 33807 XOR\n2 1 33807 33809 16358 XOR\n2 1 33808 16358 16360 XOR\n2 1 33811 16360 16438 XOR\n2 1 16358 16452 16444 XOR\n2 1 33806 16444 16443 XOR\n2 1 33807 33808 16375 XOR\n2 1 16452 16375 16448 XOR\n2 1 33813 33807 16453 XOR\n2 1 16444 16448 16437 AND\n2 1 16453 16438 16434 AND\n2 1 16434 16359 16363 XOR\n2 1 7122 7081 6960 XOR\n2 1 32967 6960 35321 XOR\n2 1 35321 839 33822 XOR\n2 1 33822 17278 17277 XOR\n2 1 33822 33828 17199 XOR\n2 1 17199 17194 17274 XOR\n2 1 32967 32938 6848 XOR\n2 1 6847 6848 7165 XOR\n2 1 7165 7121 35314 XOR\n2 1 35314 846 33815 XOR\n2 1 33815 33817 13714 XOR\n2 1 13714 13809 13801 XOR\n2 1 33816 13714 13716 XOR\n2 1 33815 33816 13732 XOR\n2 1 13809 13732 13805 XOR\n2 1 13801 13805 13794 AND\n2 1 33821 33815 13810 XOR\n2 1 32788 6970 35313 XOR\n2 1 35313 847 33814 XOR\n2 1 33814 13801 13800 XOR\n1 1 17984 32944 INV\n2 1 32968 32944 7106 XOR\n2 1 32944 35415 6994 XOR\n2 1 6993 6994 35302 XOR\n2 1 7106 32789 6966 XOR\n2 1 35302 858 33803 XOR\n2 1 33803 19279 19357 XOR\n2 1 33803 33805 19278 XOR\n2 1 19278 19373 19358 XOR\n2 1 7106 7100 6973 XOR\n2 1 32965 6973 35311 XOR\n2 1 35311 849 33812 XOR\n2 1 33812 16360 16441 XOR\n2 1 33810 33812 16361 XOR\n2 1 16437 16361 16364 XOR\n2 1 33806 33812 16365 XOR\n2 1 16365 16360 16440 XOR\n2 1 16359 16365 16447 XOR\n2 1 16375 16447 16445 XOR\n2 1 33811 16365 16450 XOR\n2 1 33807 16450 16446 XOR\n2 1 16361 16359 16321 XOR\n2 1 16358 16321 16442 XOR\n2 1 16361 33811 16320 XOR\n2 1 33806 16320 16449 XOR\n2 1 16445 16443 16436 AND\n2 1 16430 16436 16382 XOR\n2 1 16449 33806 16435 AND\n2 1 16450 16446 16433 AND\n2 1 16447 16440 16432 AND\n2 1 16452 16441 16431 AND\n2 1 16431 16360 16362 XOR\n2 1 16364 16362 16368 XOR\n2 1 33813 16368 16373 XOR\n2 1 16382 16373 16428 XOR\n2 1 16430 16431 16334 XOR\n2 1 16334 16335 16381 XOR\n2 1 16381 16363 16380 XOR\n2 1 16433 16380 16427 XOR\n2 1 16451 16442 16429 AND\n2 1 16429 16435 16387 XOR\n2 1 16387 16359 16374 XOR\n2 1 16382 16374 16425 XOR\n2 1 16368 16387 16336 XOR\n2 1 33811 16336 16379 XOR\n2 1 16429 16432 16383 XOR\n2 1 16363 16383 16337 XOR\n2 1 16337 16362 16426 XOR\n2 1 16430 16383 16377 XOR\n2 1 16433 16377 16333 XOR\n2 1 33807 16333 16420 XOR\n2 1 16428 16427 16424 AND\n2 1 16424 16426 16423 XOR\n2 1 16424 16379 16419 XOR\n2 1 16425 16423 16422 AND\n2 1 16422 16379 16421 XOR\n2 1 16422 16434 16328 XOR\n",
"2 1 16328 16364 16324 XOR\n2 1 33813 16324 16327 XOR\n2 1 16422 16373 16325 XOR\n2 1 33811 16324 16323 XOR\n2 1 16419 16420 16418 AND\n2 1 16418 16426 16417 XOR\n2 1 16418 16377 16332 XOR\n2 1 16418 16435 16331 XOR\n2 1 16331 16432 16326 XOR\n2 1 16326 16327 16409 XOR\n2 1 16424 16418 16416 XOR\n2 1 16426 16416 16415 AND\n2 1 16415 16433 16386 XOR\n2 1 33807 16386 16369 XOR\n2 1 16415 16423 16413 XOR\n2 1 16386 16380 16407 XOR\n2 1 16369 16332 16414 XOR\n2 1 16421 16413 16412 AND\n2 1 16412 16382 16372 XOR\n2 1 16412 16436 16330 XOR\n2 1 16369 16330 16322 XOR\n2 1 16359 16322 16329 XOR\n2 1 16326 16329 16410 XOR\n2 1 16372 16325 16408 XOR\n2 1 16322 16323 16406 XOR\n2 1 16372 16374 16411 XOR\n2 1 16407 16444 16405 AND\n2 1 16414 16443 16404 AND\n2 1 16417 33806 16403 AND\n2 1 16403 16405 16385 XOR\n2 1 16408 16438 16402 AND\n2 1 16411 16450 16401 AND\n2 1 16421 16440 16400 AND\n2 1 16400 16401 16339 XOR\n2 1 16409 16441 16399 AND\n2 1 16406 16439 16398 AND\n2 1 16398 16401 16354 XOR\n1 1 16354 16351 INV\n2 1 16398 16399 16350 XOR\n2 1 16410 16442 16397 AND\n2 1 16407 16448 16396 AND\n2 1 16414 16445 16395 AND\n2 1 16417 16449 16394 AND\n2 1 16408 16453 16393 AND\n2 1 16393 16397 16370 XOR\n2 1 16402 16393 16355 XOR\n1 1 16370 16348 INV\n2 1 16411 16446 16392 AND\n2 1 16400 16392 16357 XOR\n2 1 16421 16447 16391 AND\n2 1 16348 16391 16347 XOR\n2 1 16347 16385 16343 XOR\n2 1 16409 16452 16390 AND\n2 1 16390 16343 16346 XOR\n2 1 16406 16454 16389 AND\n2 1 16389 16390 16384 XOR\n2 1 16395 16384 16366 XOR\n2 1 16396 16366 16367 XOR\n2 1 16404 16367 16371 XOR\n2 1 16403 16371 16340 XOR\n2 1 16339 16340 35656 XOR\n2 1 16405 16371 16376 XOR\n2 1 16376 16350 16456 XOR\n2 1 16357 16384 16353 XOR\n2 1 16385 16353 16356 XOR\n2 1 16355 16356 16458 XOR\n2 1 16348 16353 16352 XOR\n2 1 16351 16352 16457 XOR\n2 1 16366 16343 16342 XOR\n2 1 16410 16451 16388 AND\n2 1 16399 16388 16349 XOR\n1 1 16349 16345 INV\n2 1 16345 16346 16455 XOR\n2 1 19278 19284 19366 XOR\n2 1 19294 19366 19364 XOR\n2 1 33803 19284 19369 XOR\n2 1 33799 19369 19365 XOR\n2 1 19280 19278 19240 XOR\n2 1 19277 19240 19361 XOR\n2 1 19280 33803 19239 XOR\n2 1 33798 19239 19368 XOR\n2 1 19364 19362 19355 AND\n2 1 19368 33798 19354 AND\n2 1 19372 19357 19353 AND\n2 1 19353 19278 19282 XOR\n2 1 19369 19365 19352 AND\n2 1 19366 19359 19351 AND\n2 1 19373 19358 19349 AND\n2 1 19349 19355 19301 XOR\n2 1 19301 19292 19347 XOR\n2 1 19349 19350 19253 XOR\n2 1 19253 19254 19300 XOR\n2 1 19300 19282 19299 XOR\n2 1 19352 19299 19346 XOR\n2 1 19370 19361 19348 AND\n2 1 19348 19351 19302 XOR\n2 1 19348 19354 19306 XOR\n2 1 19306 19278 19293 XOR\n2 1 19301 19293 19344 XOR\n2 1 19349 19302 19296 XOR\n2 1 19282 19302 19256 XOR\n2 1 19256 19281 19345 XOR\n2 1 19287 19306 19255 XOR\n2 1 33803 19255 19298 XOR\n2 1 19352 19296 19252 XOR\n2 1 33799 19252 19339 XOR\n2 1 19347 19346 19343 AND\n2 1 19343 19298 19338 XOR\n2 1 19343 19345 19342 XOR\n2 1 19344 19342 19341 AND\n2 1 19341 19298 19340 XOR\n2 1 19341 19353 19247 XOR\n2 1 19247 19283 19243 XOR\n2 1 33805 19243 19246 XOR\n2 1 19341 19292 19244 XOR\n2 1 33803 19243 19242 XOR\n2 1 19338 19339 19337 AND\n2 1 19337 19345 19336 XOR\n2 1 19343 19337 19335 XOR\n2 1 19337 19296 19251 XOR\n2 1 19337 19354 19250 XOR\n2 1 19250 19351 19245 XOR\n2 1 19245 19246 19328 XOR\n2 1 19345 19335 19334 AND\n2 1 19334 19342 19332 XOR\n2 1 19334 19352 19305 XOR\n2 1 19305 19299 19326 XOR\n2 1 33799 19305 19288 XOR\n",
"2 1 19288 19251 19333 XOR\n2 1 19340 19332 19331 AND\n2 1 19331 19301 19291 XOR\n2 1 19291 19293 19330 XOR\n2 1 19331 19355 19249 XOR\n2 1 19288 19249 19241 XOR\n2 1 19278 19241 19248 XOR\n2 1 19245 19248 19329 XOR\n2 1 19291 19244 19327 XOR\n2 1 19241 19242 19325 XOR\n2 1 19326 19363 19324 AND\n2 1 19333 19362 19323 AND\n2 1 19336 33798 19322 AND\n2 1 19322 19324 19304 XOR\n2 1 19327 19357 19321 AND\n2 1 19330 19369 19320 AND\n2 1 19340 19359 19319 AND\n2 1 19319 19320 19258 XOR\n2 1 19328 19360 19318 AND\n2 1 19325 19358 19317 AND\n2 1 19317 19320 19273 XOR\n1 1 19273 19270 INV\n2 1 19317 19318 19269 XOR\n2 1 19329 19361 19316 AND\n2 1 19326 19367 19315 AND\n2 1 19333 19364 19314 AND\n2 1 19336 19368 19313 AND\n2 1 19327 19372 19312 AND\n2 1 19312 19316 19289 XOR\n2 1 19321 19312 19274 XOR\n1 1 19289 19267 INV\n2 1 19330 19365 19311 AND\n2 1 19319 19311 19276 XOR\n2 1 19340 19366 19310 AND\n2 1 19267 19310 19266 XOR\n2 1 19266 19304 19262 XOR\n2 1 19328 19371 19309 AND\n2 1 19309 19262 19265 XOR\n2 1 19325 19373 19308 AND\n2 1 19308 19309 19303 XOR\n2 1 19314 19303 19285 XOR\n2 1 19315 19285 19286 XOR\n2 1 19323 19286 19290 XOR\n2 1 19324 19290 19295 XOR\n2 1 19276 19303 19272 XOR\n2 1 19304 19272 19275 XOR\n2 1 19274 19275 19377 XOR\n2 1 19267 19272 19271 XOR\n2 1 19270 19271 19376 XOR\n2 1 19295 19269 19375 XOR\n2 1 19285 19262 19261 XOR\n2 1 19322 19290 19259 XOR\n2 1 19258 19259 35595 XOR\n2 1 19329 19370 19307 AND\n2 1 19318 19307 19268 XOR\n1 1 19268 19264 INV\n2 1 19264 19265 19374 XOR\n2 1 32937 32944 6963 XOR\n2 1 6962 6963 35319 XOR\n1 1 6966 6964 INV\n2 1 6964 6965 35318 XOR\n2 1 35319 841 33820 XOR\n2 1 33814 33820 13721 XOR\n2 1 33820 13716 13798 XOR\n2 1 13809 13798 13788 AND\n2 1 13788 13716 13718 XOR\n2 1 13721 13716 13797 XOR\n2 1 33818 33820 13717 XOR\n2 1 13794 13717 13720 XOR\n2 1 13720 13718 13724 XOR\n2 1 33821 13724 13730 XOR\n2 1 35318 842 33819 XOR\n2 1 33819 33821 13715 XOR\n2 1 13715 13721 13804 XOR\n2 1 13715 13811 13796 XOR\n2 1 13811 13796 13787 AND\n2 1 33819 13716 13795 XOR\n2 1 13810 13795 13791 AND\n2 1 13791 13715 13719 XOR\n2 1 13732 13804 13802 XOR\n2 1 13804 13797 13789 AND\n2 1 13717 13715 13677 XOR\n2 1 13714 13677 13799 XOR\n2 1 13808 13799 13786 AND\n2 1 13786 13789 13740 XOR\n2 1 13719 13740 13693 XOR\n2 1 13787 13740 13734 XOR\n2 1 13693 13718 13783 XOR\n2 1 13787 13788 13690 XOR\n2 1 13690 13691 13738 XOR\n2 1 13738 13719 13737 XOR\n2 1 13802 13800 13793 AND\n2 1 13787 13793 13739 XOR\n2 1 13739 13730 13785 XOR\n2 1 7106 7102 6947 XOR\n2 1 32972 6947 35326 XOR\n2 1 35326 834 33827 XOR\n2 1 33827 17194 17272 XOR\n2 1 33827 33829 17193 XOR\n2 1 17193 17288 17273 XOR\n2 1 17193 17199 17281 XOR\n2 1 17209 17281 17279 XOR\n2 1 33827 17199 17284 XOR\n2 1 33823 17284 17280 XOR\n2 1 17195 17193 17155 XOR\n2 1 17192 17155 17276 XOR\n2 1 17195 33827 17154 XOR\n2 1 33822 17154 17283 XOR\n2 1 17279 17277 17270 AND\n2 1 17283 33822 17269 AND\n2 1 17287 17272 17268 AND\n2 1 17268 17193 17197 XOR\n2 1 17284 17280 17267 AND\n2 1 17281 17274 17266 AND\n2 1 17288 17273 17264 AND\n2 1 17264 17270 17216 XOR\n2 1 17216 17207 17262 XOR\n2 1 17264 17265 17168 XOR\n2 1 17168 17169 17215 XOR\n2 1 17215 17197 17214 XOR\n2 1 17267 17214 17261 XOR\n2 1 17285 17276 17263 AND\n2 1 17263 17266 17217 XOR\n2 1 17263 17269 17221 XOR\n2 1 17221 17193 17208 XOR\n2 1 17216 17208 17259 XOR\n2 1 17264 17217 17211 XOR\n2 1 17197 17217 17171 XOR\n",
"2 1 17171 17196 17260 XOR\n2 1 17202 17221 17170 XOR\n2 1 33827 17170 17213 XOR\n2 1 17267 17211 17167 XOR\n2 1 33823 17167 17254 XOR\n2 1 17262 17261 17258 AND\n2 1 17258 17213 17253 XOR\n2 1 17258 17260 17257 XOR\n2 1 17259 17257 17256 AND\n2 1 17256 17213 17255 XOR\n2 1 17256 17268 17162 XOR\n2 1 17162 17198 17158 XOR\n2 1 33829 17158 17161 XOR\n2 1 17256 17207 17159 XOR\n2 1 33827 17158 17157 XOR\n2 1 17253 17254 17252 AND\n2 1 17252 17260 17251 XOR\n2 1 17258 17252 17250 XOR\n2 1 17252 17211 17166 XOR\n2 1 17252 17269 17165 XOR\n2 1 17165 17266 17160 XOR\n2 1 17160 17161 17243 XOR\n2 1 17260 17250 17249 AND\n2 1 17249 17257 17247 XOR\n2 1 17249 17267 17220 XOR\n2 1 17220 17214 17241 XOR\n2 1 33823 17220 17203 XOR\n2 1 17203 17166 17248 XOR\n2 1 17255 17247 17246 AND\n2 1 17246 17216 17206 XOR\n2 1 17206 17208 17245 XOR\n2 1 17246 17270 17164 XOR\n2 1 17203 17164 17156 XOR\n2 1 17193 17156 17163 XOR\n2 1 17160 17163 17244 XOR\n2 1 17206 17159 17242 XOR\n2 1 17156 17157 17240 XOR\n2 1 17241 17278 17239 AND\n2 1 17248 17277 17238 AND\n2 1 17251 33822 17237 AND\n2 1 17237 17239 17219 XOR\n2 1 17242 17272 17236 AND\n2 1 17245 17284 17235 AND\n2 1 17255 17274 17234 AND\n2 1 17234 17235 17173 XOR\n2 1 17243 17275 17233 AND\n2 1 17240 17273 17232 AND\n2 1 17232 17235 17188 XOR\n1 1 17188 17185 INV\n2 1 17232 17233 17184 XOR\n2 1 17244 17276 17231 AND\n2 1 17241 17282 17230 AND\n2 1 17248 17279 17229 AND\n2 1 17251 17283 17228 AND\n2 1 17242 17287 17227 AND\n2 1 17227 17231 17204 XOR\n2 1 17236 17227 17189 XOR\n1 1 17204 17182 INV\n2 1 17245 17280 17226 AND\n2 1 17234 17226 17191 XOR\n2 1 17255 17281 17225 AND\n2 1 17182 17225 17181 XOR\n2 1 17181 17219 17177 XOR\n2 1 17243 17286 17224 AND\n2 1 17224 17177 17180 XOR\n2 1 17240 17288 17223 AND\n2 1 17223 17224 17218 XOR\n2 1 17229 17218 17200 XOR\n2 1 17230 17200 17201 XOR\n2 1 17238 17201 17205 XOR\n2 1 17239 17205 17210 XOR\n2 1 17191 17218 17187 XOR\n2 1 17219 17187 17190 XOR\n2 1 17189 17190 17292 XOR\n2 1 17182 17187 17186 XOR\n2 1 17185 17186 17291 XOR\n2 1 17210 17184 17290 XOR\n2 1 17200 17177 17176 XOR\n2 1 17237 17205 17174 XOR\n2 1 17173 17174 35628 XOR\n2 1 17244 17285 17222 AND\n2 1 17233 17222 17183 XOR\n1 1 17183 17179 INV\n2 1 17179 17180 17289 XOR\n2 1 16401 16402 32671 XOR\n2 1 16398 32671 16378 XOR\n2 1 16399 16378 16338 XOR\n2 1 16367 16338 35658 XOR\n2 1 16394 16378 16344 XOR\n1 1 16344 16341 INV\n2 1 16341 16342 35655 XOR\n2 1 35656 35655 7879 XOR\n2 1 32671 16376 35657 XOR\n2 1 33819 13721 13807 XOR\n2 1 33815 13807 13803 XOR\n2 1 13807 13803 13790 AND\n2 1 13790 13737 13784 XOR\n2 1 13790 13734 13689 XOR\n2 1 33815 13689 13777 XOR\n2 1 13785 13784 13781 AND\n2 1 13781 13783 13780 XOR\n2 1 17235 17236 32677 XOR\n2 1 17232 32677 17212 XOR\n2 1 17228 17212 17178 XOR\n1 1 17178 17175 INV\n2 1 17175 17176 35627 XOR\n2 1 17233 17212 17172 XOR\n2 1 17201 17172 35630 XOR\n2 1 32677 17210 35629 XOR\n2 1 19320 19321 32692 XOR\n2 1 19317 32692 19297 XOR\n2 1 19313 19297 19263 XOR\n1 1 19263 19260 INV\n2 1 19260 19261 35594 XOR\n2 1 19318 19297 19257 XOR\n2 1 19286 19257 35597 XOR\n2 1 32692 19295 35596 XOR\n2 1 13717 33819 13676 XOR\n2 1 33814 13676 13806 XOR\n2 1 13806 33814 13792 AND\n2 1 13786 13792 13744 XOR\n2 1 13724 13744 13692 XOR\n2 1 33819 13692 13736 XOR\n2 1 13781 13736 13776 XOR\n2 1 13776 13777 13775 AND\n2 1 13775 13734 13688 XOR\n2 1 13781 13775 13773 XOR\n2 1 13783 13773 13772 AND\n",
"2 1 13772 13780 13770 XOR\n2 1 13772 13790 13743 XOR\n2 1 13775 13783 13774 XOR\n2 1 13743 13737 13764 XOR\n2 1 33815 13743 13725 XOR\n2 1 13725 13688 13771 XOR\n2 1 13775 13792 13687 XOR\n2 1 13687 13789 13682 XOR\n2 1 13774 13806 13751 AND\n2 1 13764 13805 13753 AND\n2 1 13764 13801 13762 AND\n2 1 13771 13800 13761 AND\n2 1 13774 33814 13760 AND\n2 1 13760 13762 13742 XOR\n2 1 13744 13715 13731 XOR\n2 1 13739 13731 13782 XOR\n2 1 13782 13780 13779 AND\n2 1 13779 13730 13681 XOR\n2 1 13779 13736 13778 XOR\n2 1 13778 13804 13748 AND\n2 1 13778 13797 13757 AND\n2 1 13779 13791 13684 XOR\n2 1 13778 13770 13769 AND\n2 1 13684 13720 13680 XOR\n2 1 13769 13793 13686 XOR\n2 1 13725 13686 13678 XOR\n2 1 13715 13678 13685 XOR\n2 1 13682 13685 13767 XOR\n2 1 13767 13799 13754 AND\n2 1 13767 13808 13745 AND\n2 1 13769 13739 13729 XOR\n2 1 13729 13731 13768 XOR\n2 1 13768 13807 13758 AND\n2 1 13768 13803 13749 AND\n2 1 13757 13749 13713 XOR\n2 1 13757 13758 13695 XOR\n2 1 13729 13681 13765 XOR\n2 1 13765 13795 13759 AND\n2 1 13758 13759 13727 XOR\n2 1 13765 13810 13750 AND\n2 1 13750 13754 13726 XOR\n2 1 13759 13750 13711 XOR\n2 1 33821 13680 13683 XOR\n2 1 13682 13683 13766 XOR\n2 1 13766 13809 13747 AND\n2 1 13766 13798 13756 AND\n2 1 33819 13680 13679 XOR\n2 1 13678 13679 13763 XOR\n2 1 13763 13811 13746 AND\n2 1 13746 13747 13741 XOR\n2 1 13713 13741 13709 XOR\n2 1 13763 13796 13755 AND\n2 1 13755 13727 13735 XOR\n2 1 13756 13735 13694 XOR\n2 1 13751 13735 13700 XOR\n1 1 13700 13697 INV\n2 1 13742 13709 13712 XOR\n2 1 13711 13712 13815 XOR\n2 1 13771 13802 13752 AND\n2 1 13752 13741 13722 XOR\n2 1 13753 13722 13723 XOR\n2 1 13761 13723 13728 XOR\n2 1 13760 13728 13696 XOR\n2 1 13695 13696 35643 XOR\n2 1 13762 13728 13733 XOR\n2 1 13727 13733 35644 XOR\n1 1 13815 32866 INV\n2 1 13755 13758 13710 XOR\n1 1 13710 13707 INV\n1 1 13726 13704 INV\n2 1 13704 13748 13703 XOR\n2 1 13703 13742 13699 XOR\n2 1 13747 13699 13702 XOR\n2 1 13722 13699 13698 XOR\n2 1 13697 13698 35642 XOR\n2 1 13704 13709 13708 XOR\n2 1 13707 13708 13814 XOR\n1 1 13814 32865 INV\n2 1 13756 13745 13705 XOR\n1 1 13705 13701 INV\n2 1 13701 13702 13812 XOR\n1 1 13812 32871 INV\n2 1 13755 13756 13706 XOR\n2 1 13733 13706 13813 XOR\n1 1 13813 32872 INV\n2 1 13723 13694 35645 XOR\n1 1 16458 32917 INV\n1 1 16455 32922 INV\n2 1 32922 35657 8096 XOR\n1 1 16456 32923 INV\n1 1 16457 32924 INV\n1 1 17292 32925 INV\n1 1 17289 32930 INV\n1 1 17290 32931 INV\n1 1 17291 32932 INV\n1 1 19376 32953 INV\n1 1 19377 32954 INV\n1 1 19514 32957 INV\n2 1 32957 35411 7129 XOR\n2 1 7129 32892 6935 XOR\n2 1 32957 16595 7010 XOR\n2 1 7129 7085 6998 XOR\n2 1 35407 6998 35296 XOR\n2 1 35296 864 33797 XOR\n2 1 7137 7129 7027 XOR\n2 1 32885 7027 35279 XOR\n2 1 35279 881 33780 XOR\n1 1 19516 32958 INV\n2 1 32921 32958 7125 XOR\n2 1 7125 7092 7077 XOR\n2 1 32886 32958 6877 XOR\n2 1 7125 7084 7008 XOR\n2 1 32887 7008 35289 XOR\n2 1 35289 871 33790 XOR\n1 1 19374 32959 INV\n1 1 19375 32960 INV\n1 1 19513 32964 INV\n2 1 32964 7001 35294 XOR\n2 1 35294 866 33795 XOR\n2 1 33795 33797 7215 XOR\n2 1 32964 16594 7012 XOR\n2 1 7011 7012 35287 XOR\n2 1 35287 873 33788 XOR\n2 1 33786 33788 13857 XOR\n2 1 35349 811 33850 XOR\n2 1 33848 33850 7591 XOR\n1 1 20764 32989 INV\n2 1 32889 32989 7113 XOR\n",
"2 1 7113 35460 7047 XOR\n1 1 20765 32990 INV\n2 1 7175 32990 7069 XOR\n2 1 32877 32990 7101 XOR\n2 1 7113 7101 7071 XOR\n1 1 20766 32991 INV\n2 1 32878 32991 7108 XOR\n1 1 20767 32992 INV\n2 1 32879 32992 7128 XOR\n2 1 7128 7090 6888 XOR\n1 1 21879 33001 INV\n2 1 33001 32927 7146 XOR\n2 1 7146 7087 6914 XOR\n2 1 32860 6914 35345 XOR\n2 1 7146 7080 6903 XOR\n2 1 16735 33001 6855 XOR\n2 1 32883 6903 35353 XOR\n2 1 35353 807 33854 XOR\n2 1 6854 6855 7162 XOR\n2 1 7162 7134 35330 XOR\n2 1 35330 830 33831 XOR\n2 1 33831 33833 13574 XOR\n2 1 35345 815 33846 XOR\n2 1 33001 6928 35337 XOR\n2 1 35337 823 33838 XOR\n2 1 7146 7134 6926 XOR\n1 1 21876 33006 INV\n2 1 33006 35438 7116 XOR\n2 1 16734 33006 6933 XOR\n2 1 6932 6933 6931 XOR\n2 1 7116 32863 6909 XOR\n1 1 6931 35335 INV\n2 1 6909 6910 35350 XOR\n2 1 35350 810 33851 XOR\n2 1 35335 825 33836 XOR\n2 1 33830 33836 13581 XOR\n2 1 33834 33836 13577 XOR\n2 1 13577 33835 13536 XOR\n2 1 33830 13536 13666 XOR\n2 1 13666 33830 13652 AND\n2 1 33835 13581 13667 XOR\n2 1 33831 13667 13663 XOR\n2 1 13667 13663 13650 AND\n2 1 7116 7111 6891 XOR\n2 1 32888 6891 35358 XOR\n2 1 35358 802 33859 XOR\n2 1 7116 7094 6918 XOR\n2 1 33006 6919 35342 XOR\n2 1 35342 818 33843 XOR\n2 1 33859 33861 27224 XOR\n1 1 21877 33007 INV\n2 1 33007 35439 7109 XOR\n2 1 7109 32864 6908 XOR\n1 1 6908 6906 INV\n2 1 6906 6907 35351 XOR\n2 1 7109 7105 6890 XOR\n2 1 32881 6890 35359 XOR\n2 1 35359 801 33860 XOR\n2 1 35351 809 33852 XOR\n2 1 33846 33852 7501 XOR\n2 1 33851 7501 7587 XOR\n2 1 33850 33852 7497 XOR\n2 1 7497 33851 7456 XOR\n2 1 35440 33007 6930 XOR\n2 1 6929 6930 35336 XOR\n2 1 35336 824 33837 XOR\n2 1 33834 33837 13669 XOR\n2 1 33835 33837 13575 XOR\n2 1 33837 33831 13670 XOR\n2 1 13577 13575 13537 XOR\n2 1 13574 13537 13659 XOR\n2 1 13574 13669 13661 XOR\n2 1 33830 13661 13660 XOR\n2 1 13575 13581 13664 XOR\n2 1 7109 7080 6917 XOR\n2 1 33007 6918 35343 XOR\n2 1 35343 817 33844 XOR\n2 1 33838 33844 7361 XOR\n2 1 33843 7361 7447 XOR\n2 1 33854 33860 27230 XOR\n2 1 27224 27230 27313 XOR\n2 1 33859 27230 27316 XOR\n2 1 35433 6917 35344 XOR\n2 1 35344 816 33845 XOR\n2 1 33843 33845 7355 XOR\n2 1 7355 7361 7444 XOR\n2 1 33846 7456 7586 XOR\n2 1 7586 33846 7572 AND\n1 1 21878 33008 INV\n2 1 33008 35434 7145 XOR\n2 1 7159 7145 35346 XOR\n2 1 35346 814 33847 XOR\n2 1 33847 7587 7583 XOR\n2 1 6866 33008 6941 XOR\n2 1 33847 33848 7511 XOR\n2 1 33847 33849 7494 XOR\n2 1 33848 7494 7496 XOR\n2 1 33851 7496 7575 XOR\n2 1 7501 7496 7577 XOR\n2 1 33852 7496 7578 XOR\n2 1 7587 7583 7570 AND\n2 1 7145 7142 6902 XOR\n1 1 6902 6900 INV\n2 1 6940 6941 35331 XOR\n2 1 35331 829 33832 XOR\n2 1 33831 33832 13592 XOR\n2 1 13669 13592 13665 XOR\n2 1 13592 13664 13662 XOR\n2 1 33832 13574 13576 XOR\n2 1 33836 13576 13658 XOR\n2 1 13581 13576 13657 XOR\n2 1 33835 13576 13655 XOR\n2 1 13670 13655 13651 AND\n2 1 33833 33832 13551 XOR\n2 1 13664 13657 13649 AND\n2 1 13669 13658 13648 AND\n2 1 33837 33832 13668 XOR\n2 1 13661 13665 13654 AND\n2 1 13648 13576 13578 XOR\n2 1 13662 13660 13653 AND\n2 1 13668 13659 13646 AND\n2 1 13646 13652 13604 XOR\n2 1 13646 13649 13600 XOR\n2 1 13651 13575 13579 XOR\n2 1 13579 13600 13553 XOR\n2 1 13553 13578 13643 XOR\n2 1 13604 13575 13591 XOR\n2 1 33832 33834 13671 XOR\n",
"2 1 13575 13671 13656 XOR\n2 1 13671 13656 13647 AND\n2 1 13647 13648 13550 XOR\n2 1 13550 13551 13598 XOR\n2 1 13647 13600 13594 XOR\n2 1 13650 13594 13549 XOR\n2 1 33831 13549 13637 XOR\n2 1 13598 13579 13597 XOR\n2 1 13647 13653 13599 XOR\n2 1 13599 13591 13642 XOR\n2 1 13650 13597 13644 XOR\n2 1 13654 13577 13580 XOR\n2 1 13580 13578 13584 XOR\n2 1 13584 13604 13552 XOR\n2 1 33835 13552 13596 XOR\n2 1 33837 13584 13590 XOR\n2 1 13599 13590 13645 XOR\n2 1 13645 13644 13641 AND\n2 1 13641 13596 13636 XOR\n2 1 13636 13637 13635 AND\n2 1 13641 13635 13633 XOR\n2 1 13635 13594 13548 XOR\n2 1 13635 13652 13547 XOR\n2 1 13547 13649 13542 XOR\n2 1 13643 13633 13632 AND\n2 1 13632 13650 13603 XOR\n2 1 13603 13597 13624 XOR\n2 1 13624 13661 13622 AND\n2 1 13624 13665 13613 AND\n2 1 33831 13603 13585 XOR\n2 1 13585 13548 13631 XOR\n2 1 13631 13660 13621 AND\n2 1 13631 13662 13612 AND\n2 1 13635 13643 13634 XOR\n2 1 13634 33830 13620 AND\n2 1 13620 13622 13602 XOR\n2 1 13634 13666 13611 AND\n2 1 13641 13643 13640 XOR\n2 1 13632 13640 13630 XOR\n2 1 13642 13640 13639 AND\n2 1 13639 13596 13638 XOR\n2 1 13638 13664 13608 AND\n2 1 13638 13630 13629 AND\n2 1 13629 13599 13589 XOR\n2 1 13629 13653 13546 XOR\n2 1 13585 13546 13538 XOR\n2 1 13575 13538 13545 XOR\n2 1 13542 13545 13627 XOR\n2 1 13627 13668 13605 AND\n2 1 13639 13651 13544 XOR\n2 1 13544 13580 13540 XOR\n2 1 33835 13540 13539 XOR\n2 1 13538 13539 13623 XOR\n2 1 33837 13540 13543 XOR\n2 1 13542 13543 13626 XOR\n2 1 13639 13590 13541 XOR\n2 1 13638 13657 13617 AND\n2 1 13626 13658 13616 AND\n2 1 13616 13605 13565 XOR\n1 1 13565 13561 INV\n2 1 13623 13656 13615 AND\n2 1 13615 13616 13566 XOR\n2 1 13627 13659 13614 AND\n2 1 13589 13541 13625 XOR\n2 1 13625 13655 13619 AND\n2 1 13625 13670 13610 AND\n2 1 13610 13614 13586 XOR\n1 1 13586 13564 INV\n2 1 13564 13608 13563 XOR\n2 1 13563 13602 13559 XOR\n2 1 13626 13669 13607 AND\n2 1 13607 13559 13562 XOR\n2 1 13561 13562 13672 XOR\n2 1 13623 13671 13606 AND\n2 1 13589 13591 13628 XOR\n2 1 13628 13663 13609 AND\n2 1 13628 13667 13618 AND\n2 1 13618 13619 13587 XOR\n2 1 13615 13587 13595 XOR\n2 1 13615 13618 13570 XOR\n1 1 13570 13567 INV\n2 1 13611 13595 13560 XOR\n1 1 13560 13557 INV\n2 1 13617 13618 13555 XOR\n2 1 13616 13595 13554 XOR\n2 1 13606 13607 13601 XOR\n2 1 13612 13601 13582 XOR\n2 1 13582 13559 13558 XOR\n2 1 13557 13558 35614 XOR\n2 1 13613 13582 13583 XOR\n2 1 13583 13554 35617 XOR\n2 1 13621 13583 13588 XOR\n2 1 13620 13588 13556 XOR\n2 1 13555 13556 35615 XOR\n2 1 13622 13588 13593 XOR\n2 1 13587 13593 35616 XOR\n2 1 13593 13566 13673 XOR\n2 1 13619 13610 13571 XOR\n2 1 35617 35630 8139 XOR\n2 1 13617 13609 13573 XOR\n2 1 13573 13601 13569 XOR\n2 1 13602 13569 13572 XOR\n2 1 13571 13572 13675 XOR\n2 1 13564 13569 13568 XOR\n2 1 13567 13568 13674 XOR\n1 1 8139 7884 INV\n2 1 7884 32925 7882 XOR\n2 1 7884 35627 7885 XOR\n2 1 8139 35628 7888 XOR\n2 1 7145 7130 6924 XOR\n2 1 35430 6924 35339 XOR\n2 1 35339 821 33840 XOR\n2 1 33845 33840 7448 XOR\n1 1 13674 32861 INV\n1 1 13675 32862 INV\n1 1 13672 32867 INV\n2 1 32930 32867 8039 XOR\n1 1 13673 32868 INV\n2 1 35617 32868 8020 XOR\n2 1 32868 32931 8148 XOR\n1 1 23269 33021 INV\n2 1 32887 33021 7148 XOR\n2 1 7148 7126 7016 XOR\n2 1 33021 7077 35265 XOR\n2 1 7148 7086 7025 XOR\n2 1 35265 895 33766 XOR\n2 1 7148 7085 6899 XOR\n2 1 7084 33021 6876 XOR\n",
"2 1 32958 6899 35273 XOR\n2 1 35273 887 33774 XOR\n2 1 6876 6877 7153 XOR\n2 1 7153 7126 35290 XOR\n2 1 35290 870 33791 XOR\n2 1 33797 33791 7310 XOR\n2 1 33774 33780 22898 XOR\n2 1 32921 7025 35281 XOR\n2 1 35281 879 33782 XOR\n2 1 33782 33788 13861 XOR\n1 1 23266 33027 INV\n2 1 7137 33027 7013 XOR\n2 1 7013 7014 35286 XOR\n2 1 33027 16595 6936 XOR\n2 1 35286 874 33787 XOR\n2 1 6935 6936 6934 XOR\n2 1 13857 33787 13816 XOR\n2 1 33787 13861 13947 XOR\n2 1 33782 13816 13946 XOR\n2 1 13946 33782 13932 AND\n2 1 32964 33027 7132 XOR\n2 1 7135 7132 6999 XOR\n2 1 7140 7132 7028 XOR\n2 1 32892 7028 35278 XOR\n2 1 35278 882 33779 XOR\n2 1 7132 35395 6954 XOR\n1 1 6954 6952 INV\n2 1 6952 6953 35270 XOR\n2 1 33779 33781 22892 XOR\n2 1 22892 22898 22980 XOR\n2 1 33779 22898 22983 XOR\n2 1 35270 890 33771 XOR\n1 1 6934 35271 INV\n2 1 35271 889 33772 XOR\n2 1 33766 33772 14001 XOR\n2 1 33771 14001 14087 XOR\n2 1 33770 33772 13997 XOR\n2 1 13997 33771 13956 XOR\n2 1 33766 13956 14086 XOR\n2 1 14086 33766 14072 AND\n2 1 32957 6999 35295 XOR\n2 1 35295 865 33796 XOR\n2 1 33790 33796 7221 XOR\n2 1 7215 7221 7304 XOR\n2 1 33795 7221 7307 XOR\n2 1 33791 7307 7303 XOR\n2 1 7307 7303 7290 AND\n1 1 23268 33028 INV\n2 1 33028 19515 7006 XOR\n2 1 7005 7006 35291 XOR\n2 1 35291 869 33792 XOR\n2 1 33797 33792 7308 XOR\n2 1 33791 33792 7231 XOR\n2 1 32886 33028 7147 XOR\n2 1 7147 7124 7000 XOR\n2 1 35408 7000 35267 XOR\n2 1 35267 893 33768 XOR\n2 1 7231 7304 7302 XOR\n2 1 6988 33028 7017 XOR\n2 1 7016 7017 7015 XOR\n1 1 7015 35266 INV\n2 1 35266 894 33767 XOR\n2 1 33767 33769 13994 XOR\n2 1 33768 13994 13996 XOR\n2 1 14001 13996 14077 XOR\n2 1 33771 13996 14075 XOR\n2 1 33772 13996 14078 XOR\n2 1 33767 14087 14083 XOR\n2 1 14087 14083 14070 AND\n2 1 7147 7125 7023 XOR\n2 1 7023 7024 7022 XOR\n1 1 7022 35282 INV\n2 1 35282 878 33783 XOR\n2 1 33783 13947 13943 XOR\n2 1 13947 13943 13930 AND\n2 1 33783 33784 13872 XOR\n2 1 33783 33785 13854 XOR\n2 1 33784 13854 13856 XOR\n2 1 13861 13856 13937 XOR\n2 1 33788 13856 13938 XOR\n2 1 33768 33770 14091 XOR\n2 1 33767 33768 14012 XOR\n2 1 33787 13856 13935 XOR\n2 1 33769 33768 13971 XOR\n1 1 7083 33233 INV\n2 1 33233 35448 6904 XOR\n2 1 6904 6905 35352 XOR\n2 1 35352 808 33853 XOR\n2 1 33851 33853 7495 XOR\n2 1 7495 7501 7584 XOR\n2 1 33850 33853 7589 XOR\n2 1 7511 7584 7582 XOR\n2 1 7495 7591 7576 XOR\n2 1 7589 7511 7585 XOR\n2 1 7494 7589 7581 XOR\n2 1 33846 7581 7580 XOR\n2 1 7581 7585 7574 AND\n2 1 7574 7497 7500 XOR\n2 1 33853 33848 7588 XOR\n2 1 7497 7495 7457 XOR\n2 1 7494 7457 7579 XOR\n2 1 7582 7580 7573 AND\n2 1 7584 7577 7569 AND\n2 1 7591 7576 7567 AND\n2 1 7567 7573 7518 XOR\n2 1 7588 7579 7566 AND\n2 1 7566 7572 7523 XOR\n2 1 7523 7495 7510 XOR\n2 1 7518 7510 7562 XOR\n2 1 7566 7569 7519 XOR\n2 1 7567 7519 7513 XOR\n2 1 7570 7513 7469 XOR\n2 1 33847 7469 7557 XOR\n2 1 33853 33847 7590 XOR\n2 1 33233 33008 6927 XOR\n2 1 6926 6927 6925 XOR\n1 1 6925 35338 INV\n2 1 35338 822 33839 XOR\n2 1 33839 33840 7371 XOR\n2 1 7371 7444 7442 XOR\n2 1 33839 7447 7443 XOR\n2 1 33845 33839 7450 XOR\n2 1 7447 7443 7430 AND\n2 1 33233 35432 6921 XOR\n2 1 33233 35431 6923 XOR\n2 1 6922 6923 35340 XOR\n2 1 35340 820 33841 XOR\n2 1 33841 33840 7331 XOR\n",
"2 1 33839 33841 7354 XOR\n2 1 33840 7354 7356 XOR\n2 1 33844 7356 7438 XOR\n2 1 33843 7356 7435 XOR\n2 1 7361 7356 7437 XOR\n2 1 7450 7435 7431 AND\n2 1 7431 7355 7359 XOR\n2 1 7444 7437 7429 AND\n2 1 6920 6921 35341 XOR\n2 1 35341 819 33842 XOR\n2 1 33842 33844 7357 XOR\n2 1 33842 33845 7449 XOR\n2 1 7354 7449 7441 XOR\n2 1 33838 7441 7440 XOR\n2 1 7449 7371 7445 XOR\n2 1 33840 33842 7451 XOR\n2 1 7355 7451 7436 XOR\n2 1 7451 7436 7427 AND\n2 1 7449 7438 7428 AND\n2 1 7428 7356 7358 XOR\n2 1 7427 7428 7330 XOR\n2 1 7330 7331 7377 XOR\n2 1 7377 7359 7376 XOR\n2 1 7430 7376 7424 XOR\n2 1 7441 7445 7434 AND\n2 1 7434 7357 7360 XOR\n2 1 7360 7358 7364 XOR\n2 1 33845 7364 7369 XOR\n2 1 7357 7355 7317 XOR\n2 1 7442 7440 7433 AND\n2 1 7427 7433 7378 XOR\n2 1 7378 7369 7425 XOR\n2 1 7425 7424 7421 AND\n2 1 7354 7317 7439 XOR\n2 1 7448 7439 7426 AND\n2 1 7426 7429 7379 XOR\n2 1 7359 7379 7333 XOR\n2 1 7333 7358 7423 XOR\n2 1 7421 7423 7420 XOR\n2 1 7427 7379 7373 XOR\n2 1 7430 7373 7329 XOR\n2 1 33839 7329 7417 XOR\n2 1 7357 33843 7316 XOR\n2 1 33838 7316 7446 XOR\n2 1 7446 33838 7432 AND\n2 1 7426 7432 7383 XOR\n2 1 7364 7383 7332 XOR\n2 1 7383 7355 7370 XOR\n2 1 7378 7370 7422 XOR\n2 1 33843 7332 7375 XOR\n2 1 7421 7375 7416 XOR\n2 1 7422 7420 7419 AND\n2 1 7419 7375 7418 XOR\n2 1 7418 7437 7397 AND\n2 1 7416 7417 7415 AND\n2 1 7415 7423 7414 XOR\n2 1 7421 7415 7413 XOR\n2 1 7415 7373 7328 XOR\n2 1 7423 7413 7412 AND\n2 1 7412 7420 7410 XOR\n2 1 7412 7430 7382 XOR\n2 1 7382 7376 7404 XOR\n2 1 33839 7382 7365 XOR\n2 1 7365 7328 7411 XOR\n2 1 7418 7410 7409 AND\n2 1 7409 7378 7368 XOR\n2 1 7368 7370 7408 XOR\n2 1 7414 7446 7391 AND\n2 1 7404 7445 7393 AND\n2 1 7411 7442 7392 AND\n2 1 7419 7369 7321 XOR\n2 1 7368 7321 7405 XOR\n2 1 7405 7435 7399 AND\n2 1 7411 7440 7401 AND\n2 1 7405 7450 7390 AND\n2 1 7399 7390 7351 XOR\n2 1 7408 7443 7389 AND\n2 1 7397 7389 7353 XOR\n2 1 7408 7447 7398 AND\n2 1 7397 7398 7335 XOR\n2 1 7398 7399 7384 XOR\n2 1 7414 33838 7400 AND\n2 1 7418 7444 7388 AND\n2 1 7404 7441 7402 AND\n2 1 7400 7402 7381 XOR\n2 1 7409 7433 7326 XOR\n2 1 7415 7432 7327 XOR\n2 1 7327 7429 7322 XOR\n2 1 7365 7326 7318 XOR\n2 1 7355 7318 7325 XOR\n2 1 7322 7325 7407 XOR\n2 1 7407 7448 7385 AND\n2 1 7419 7431 7324 XOR\n2 1 7324 7360 7320 XOR\n2 1 33843 7320 7319 XOR\n2 1 33845 7320 7323 XOR\n2 1 7322 7323 7406 XOR\n2 1 7406 7438 7396 AND\n2 1 7396 7385 7345 XOR\n1 1 7345 7341 INV\n2 1 7406 7449 7387 AND\n2 1 7407 7439 7394 AND\n2 1 7390 7394 7366 XOR\n1 1 7366 7344 INV\n2 1 7344 7388 7343 XOR\n2 1 7343 7381 7339 XOR\n2 1 7387 7339 7342 XOR\n2 1 7341 7342 7452 XOR\n1 1 7452 35601 INV\n2 1 32959 35601 8185 XOR\n2 1 7318 7319 7403 XOR\n2 1 7403 7436 7395 AND\n2 1 7395 7384 7374 XOR\n2 1 7391 7374 7340 XOR\n1 1 7340 7337 INV\n2 1 7396 7374 7334 XOR\n2 1 7395 7398 7350 XOR\n1 1 7350 7347 INV\n2 1 7395 7396 7346 XOR\n2 1 7403 7451 7386 AND\n2 1 7386 7387 7380 XOR\n2 1 7353 7380 7349 XOR\n2 1 7381 7349 7352 XOR\n2 1 7351 7352 7455 XOR\n2 1 7344 7349 7348 XOR\n2 1 7347 7348 7454 XOR\n2 1 7392 7380 7362 XOR\n2 1 7362 7339 7338 XOR\n",
"2 1 7337 7338 35598 XOR\n2 1 7393 7362 7363 XOR\n2 1 7363 7334 35603 XOR\n2 1 7401 7363 7367 XOR\n2 1 7400 7367 7336 XOR\n2 1 7402 7367 7372 XOR\n2 1 7335 7336 35599 XOR\n2 1 7372 7346 7453 XOR\n2 1 7384 7372 35600 XOR\n2 1 35596 35600 8188 XOR\n1 1 7453 35602 INV\n2 1 35595 35599 8197 XOR\n1 1 8197 8078 INV\n2 1 32960 35602 8183 XOR\n2 1 35597 35603 8133 XOR\n2 1 8133 35595 7921 XOR\n2 1 7590 7575 7571 AND\n2 1 7571 7495 7499 XOR\n2 1 7499 7519 7473 XOR\n2 1 7589 7578 7568 AND\n2 1 7568 7496 7498 XOR\n2 1 7500 7498 7504 XOR\n2 1 33853 7504 7509 XOR\n2 1 7518 7509 7565 XOR\n2 1 7473 7498 7563 XOR\n2 1 7567 7568 7470 XOR\n2 1 7504 7523 7472 XOR\n2 1 33851 7472 7515 XOR\n2 1 7470 7471 7517 XOR\n2 1 7517 7499 7516 XOR\n2 1 7570 7516 7564 XOR\n1 1 7455 32791 INV\n1 1 7454 32798 INV\n2 1 35594 35598 7922 XOR\n2 1 7921 7922 8202 XOR\n2 1 7565 7564 7561 AND\n2 1 7561 7563 7560 XOR\n2 1 7561 7515 7556 XOR\n2 1 7562 7560 7559 AND\n2 1 7559 7515 7558 XOR\n2 1 7559 7509 7461 XOR\n2 1 7559 7571 7464 XOR\n2 1 7464 7500 7460 XOR\n2 1 33851 7460 7459 XOR\n2 1 33853 7460 7463 XOR\n2 1 7558 7584 7528 AND\n2 1 7556 7557 7555 AND\n2 1 7555 7563 7554 XOR\n2 1 7561 7555 7553 XOR\n2 1 7555 7513 7468 XOR\n2 1 7555 7572 7467 XOR\n2 1 7467 7569 7462 XOR\n2 1 7462 7463 7546 XOR\n2 1 7554 33846 7540 AND\n2 1 7546 7589 7527 AND\n2 1 7563 7553 7552 AND\n2 1 7552 7560 7550 XOR\n2 1 7552 7570 7522 XOR\n2 1 33847 7522 7505 XOR\n2 1 7505 7468 7551 XOR\n2 1 7522 7516 7544 XOR\n2 1 7544 7581 7542 AND\n2 1 7540 7542 7521 XOR\n2 1 7558 7550 7549 AND\n2 1 7549 7518 7508 XOR\n2 1 7508 7510 7548 XOR\n2 1 7549 7573 7466 XOR\n2 1 7505 7466 7458 XOR\n2 1 7495 7458 7465 XOR\n2 1 7462 7465 7547 XOR\n2 1 7458 7459 7543 XOR\n2 1 7508 7461 7545 XOR\n2 1 7543 7576 7535 AND\n2 1 7551 7580 7541 AND\n2 1 7554 7586 7531 AND\n2 1 7545 7575 7539 AND\n2 1 7547 7579 7534 AND\n2 1 7551 7582 7532 AND\n2 1 7548 7587 7538 AND\n2 1 7535 7538 7490 XOR\n1 1 7490 7487 INV\n2 1 7538 7539 7524 XOR\n2 1 7535 7524 7514 XOR\n2 1 7531 7514 7480 XOR\n1 1 7480 7477 INV\n2 1 7558 7577 7537 AND\n2 1 7537 7538 7475 XOR\n2 1 7546 7578 7536 AND\n2 1 7536 7514 7474 XOR\n2 1 7535 7536 7486 XOR\n2 1 7544 7585 7533 AND\n2 1 7545 7590 7530 AND\n2 1 7539 7530 7491 XOR\n2 1 7530 7534 7506 XOR\n1 1 7506 7484 INV\n2 1 7484 7528 7483 XOR\n2 1 7483 7521 7479 XOR\n2 1 7527 7479 7482 XOR\n2 1 7548 7583 7529 AND\n2 1 7537 7529 7493 XOR\n2 1 7543 7591 7526 AND\n2 1 7526 7527 7520 XOR\n2 1 7532 7520 7502 XOR\n2 1 7533 7502 7503 XOR\n2 1 7541 7503 7507 XOR\n2 1 7542 7507 7512 XOR\n2 1 7512 7486 7593 XOR\n2 1 7524 7512 35661 XOR\n2 1 7540 7507 7476 XOR\n2 1 7502 7479 7478 XOR\n2 1 7477 7478 35659 XOR\n2 1 7503 7474 35662 XOR\n2 1 35658 35662 8141 XOR\n2 1 7475 7476 35660 XOR\n2 1 35661 35660 7933 XOR\n2 1 7493 7520 7489 XOR\n2 1 7484 7489 7488 XOR\n2 1 7487 7488 7594 XOR\n2 1 35656 35660 8146 XOR\n2 1 7521 7489 7492 XOR\n2 1 7491 7492 7595 XOR\n2 1 7547 7588 7525 AND\n2 1 7536 7525 7485 XOR\n1 1 7485 7481 INV\n2 1 7481 7482 7592 XOR\n2 1 8141 35659 7878 XOR\n2 1 7878 7879 8220 XOR\n1 1 7593 32795 INV\n",
"2 1 32795 32923 8093 XOR\n1 1 7594 32796 INV\n2 1 32796 32924 8100 XOR\n1 1 7595 32797 INV\n2 1 32797 32917 7877 XOR\n1 1 7592 32802 INV\n2 1 32795 32802 8081 XOR\n2 1 32922 32802 8151 XOR\n1 1 8151 8122 INV\n1 1 6592 33240 INV\n2 1 33240 35214 6487 XOR\n2 1 33240 35213 6490 XOR\n2 1 6489 6490 35107 XOR\n2 1 35107 980 33681 XOR\n2 1 33240 32900 6494 XOR\n2 1 6486 6487 35108 XOR\n2 1 35108 979 33682 XOR\n2 1 6493 6494 6492 XOR\n1 1 6492 35105 INV\n2 1 35105 982 33679 XOR\n2 1 33679 33681 31843 XOR\n2 1 33680 31843 31845 XOR\n2 1 33684 31845 31926 XOR\n2 1 33683 31845 31923 XOR\n2 1 31850 31845 31925 XOR\n2 1 33682 33684 31846 XOR\n2 1 33679 31935 31931 XOR\n2 1 33682 33685 31937 XOR\n2 1 31843 31937 31929 XOR\n2 1 33678 31929 31928 XOR\n2 1 33679 33680 31860 XOR\n2 1 31860 31932 31930 XOR\n2 1 31937 31860 31933 XOR\n2 1 33680 33682 31939 XOR\n2 1 31844 31939 31924 XOR\n2 1 33681 33680 31820 XOR\n2 1 31846 31844 31806 XOR\n2 1 31843 31806 31927 XOR\n2 1 31846 33683 31805 XOR\n2 1 33678 31805 31934 XOR\n2 1 33685 33679 31938 XOR\n2 1 31929 31933 31922 AND\n2 1 31922 31846 31849 XOR\n2 1 31930 31928 31921 AND\n2 1 31934 33678 31920 AND\n2 1 31938 31923 31919 AND\n2 1 31919 31844 31848 XOR\n2 1 31935 31931 31918 AND\n2 1 31932 31925 31917 AND\n2 1 31937 31926 31916 AND\n2 1 31916 31845 31847 XOR\n2 1 31849 31847 31853 XOR\n2 1 33685 31853 31858 XOR\n2 1 31939 31924 31915 AND\n2 1 31915 31921 31867 XOR\n2 1 31867 31858 31913 XOR\n2 1 31915 31916 31819 XOR\n2 1 31819 31820 31866 XOR\n2 1 31866 31848 31865 XOR\n2 1 31918 31865 31912 XOR\n2 1 31936 31927 31914 AND\n2 1 31914 31917 31868 XOR\n2 1 31914 31920 31872 XOR\n2 1 31872 31844 31859 XOR\n2 1 31867 31859 31910 XOR\n2 1 31915 31868 31862 XOR\n2 1 31848 31868 31822 XOR\n2 1 31822 31847 31911 XOR\n2 1 31853 31872 31821 XOR\n2 1 33683 31821 31864 XOR\n2 1 31918 31862 31818 XOR\n2 1 33679 31818 31905 XOR\n2 1 31913 31912 31909 AND\n2 1 31909 31864 31904 XOR\n2 1 31909 31911 31908 XOR\n2 1 31910 31908 31907 AND\n2 1 31907 31864 31906 XOR\n2 1 31907 31919 31813 XOR\n2 1 31813 31849 31809 XOR\n2 1 33685 31809 31812 XOR\n2 1 31907 31858 31810 XOR\n2 1 33683 31809 31808 XOR\n2 1 31904 31905 31903 AND\n2 1 31903 31911 31902 XOR\n2 1 31909 31903 31901 XOR\n2 1 31903 31862 31817 XOR\n2 1 31903 31920 31816 XOR\n2 1 31816 31917 31811 XOR\n2 1 31811 31812 31894 XOR\n2 1 31911 31901 31900 AND\n2 1 31900 31908 31898 XOR\n2 1 31900 31918 31871 XOR\n2 1 31871 31865 31892 XOR\n2 1 33679 31871 31854 XOR\n2 1 31854 31817 31899 XOR\n2 1 31906 31898 31897 AND\n2 1 31897 31867 31857 XOR\n2 1 31857 31859 31896 XOR\n2 1 31897 31921 31815 XOR\n2 1 31854 31815 31807 XOR\n2 1 31844 31807 31814 XOR\n2 1 31811 31814 31895 XOR\n2 1 31857 31810 31893 XOR\n2 1 31807 31808 31891 XOR\n2 1 31892 31929 31890 AND\n2 1 31899 31928 31889 AND\n2 1 31902 33678 31888 AND\n2 1 31888 31890 31870 XOR\n2 1 31893 31923 31887 AND\n2 1 31896 31935 31886 AND\n2 1 31906 31925 31885 AND\n2 1 31885 31886 31824 XOR\n2 1 31894 31926 31884 AND\n2 1 31891 31924 31883 AND\n2 1 31883 31886 31839 XOR\n1 1 31839 31836 INV\n2 1 31883 31884 31835 XOR\n2 1 31895 31927 31882 AND\n2 1 31892 31933 31881 AND\n2 1 31899 31930 31880 AND\n2 1 31902 31934 31879 AND\n2 1 31893 31938 31878 AND\n2 1 31878 31882 31855 XOR\n2 1 31887 31878 31840 XOR\n1 1 31855 31833 INV\n2 1 31896 31931 31877 AND\n2 1 31885 31877 31842 XOR\n2 1 31906 31932 31876 AND\n",
"2 1 31833 31876 31832 XOR\n2 1 31832 31870 31828 XOR\n2 1 31894 31937 31875 AND\n2 1 31875 31828 31831 XOR\n2 1 31891 31939 31874 AND\n2 1 31874 31875 31869 XOR\n2 1 31880 31869 31851 XOR\n2 1 31881 31851 31852 XOR\n2 1 31889 31852 31856 XOR\n2 1 31890 31856 31861 XOR\n2 1 31842 31869 31838 XOR\n2 1 31870 31838 31841 XOR\n2 1 31840 31841 31943 XOR\n2 1 31833 31838 31837 XOR\n2 1 31836 31837 31942 XOR\n2 1 31861 31835 31941 XOR\n2 1 31851 31828 31827 XOR\n2 1 31888 31856 31825 XOR\n2 1 31824 31825 35455 XOR\n2 1 35455 35459 7098 XOR\n2 1 7166 7098 35364 XOR\n2 1 35364 796 33865 XOR\n2 1 7098 7096 7037 XOR\n2 1 7037 7038 7036 XOR\n1 1 7036 35388 INV\n2 1 35388 772 33889 XOR\n2 1 35455 6883 6882 XOR\n2 1 31895 31936 31873 AND\n2 1 31884 31873 31834 XOR\n1 1 31834 31830 INV\n2 1 31830 31831 31940 XOR\n2 1 31886 31887 32726 XOR\n2 1 31883 32726 31863 XOR\n2 1 31884 31863 31823 XOR\n2 1 31879 31863 31829 XOR\n1 1 31829 31826 INV\n2 1 31826 31827 35454 XOR\n2 1 35449 35454 7118 XOR\n2 1 7118 7104 7063 XOR\n1 1 7063 7061 INV\n2 1 7118 35462 7051 XOR\n2 1 7118 7108 7039 XOR\n2 1 35455 35454 6832 XOR\n2 1 31852 31823 35457 XOR\n2 1 35457 14649 7070 XOR\n2 1 35457 35461 7093 XOR\n2 1 35453 35457 7079 XOR\n1 1 7079 7174 INV\n2 1 7174 32890 7067 XOR\n2 1 7174 35459 7062 XOR\n2 1 7061 7062 35372 XOR\n2 1 35372 788 33873 XOR\n2 1 7093 35464 7050 XOR\n2 1 7079 35465 7044 XOR\n2 1 7069 7070 35368 XOR\n2 1 7093 32991 6829 XOR\n2 1 7174 35450 6881 XOR\n2 1 6881 6882 7151 XOR\n2 1 7151 7095 35373 XOR\n2 1 35373 787 33874 XOR\n2 1 7093 35458 6831 XOR\n2 1 6831 6832 7172 XOR\n2 1 7172 7104 35380 XOR\n2 1 35380 780 33881 XOR\n2 1 35368 792 33869 XOR\n2 1 7101 7079 7032 XOR\n2 1 35461 7032 35392 XOR\n2 1 35392 768 33893 XOR\n2 1 7128 7079 7068 XOR\n2 1 35458 7039 35387 XOR\n2 1 35387 773 33888 XOR\n2 1 33893 33888 27177 XOR\n2 1 33889 33888 27060 XOR\n2 1 32991 35454 6887 XOR\n2 1 6886 6887 35363 XOR\n2 1 35363 797 33864 XOR\n2 1 33869 33864 7728 XOR\n2 1 33865 33864 7611 XOR\n2 1 32726 31861 35456 XOR\n2 1 35451 35456 7144 XOR\n2 1 7144 7113 7060 XOR\n2 1 32884 7060 35374 XOR\n2 1 35374 786 33875 XOR\n2 1 7090 35456 7076 XOR\n2 1 7075 7076 35365 XOR\n2 1 35365 795 33866 XOR\n2 1 33864 33866 7731 XOR\n2 1 33866 33869 7729 XOR\n2 1 7144 7098 7049 XOR\n2 1 7049 7050 35381 XOR\n2 1 35381 779 33882 XOR\n2 1 7150 7144 35389 XOR\n2 1 35389 771 33890 XOR\n2 1 33890 33893 27178 XOR\n2 1 33888 33890 27180 XOR\n2 1 32891 7068 35369 XOR\n2 1 35369 791 33870 XOR\n1 1 31942 33217 INV\n2 1 32890 33217 7133 XOR\n2 1 7133 7096 7064 XOR\n2 1 35449 7064 35371 XOR\n2 1 35371 789 33872 XOR\n2 1 32878 33217 7052 XOR\n2 1 7051 7052 35379 XOR\n2 1 35379 781 33880 XOR\n1 1 7133 7042 INV\n2 1 7042 7128 7040 XOR\n2 1 7040 7041 35386 XOR\n2 1 35386 774 33887 XOR\n2 1 33872 33874 7871 XOR\n2 1 32992 33217 6844 XOR\n2 1 6843 6844 7167 XOR\n2 1 7167 7108 35362 XOR\n2 1 35362 798 33863 XOR\n2 1 33863 33864 7651 XOR\n2 1 33869 33863 7730 XOR\n2 1 7729 7651 7725 XOR\n2 1 33873 33872 7751 XOR\n2 1 33880 33882 24383 XOR\n2 1 33881 33880 24263 XOR\n2 1 33887 33889 27083 XOR\n2 1 33888 27083 27085 XOR\n2 1 27083 27178 27170 XOR\n2 1 33887 33888 27100 XOR\n2 1 27178 27100 27174 XOR\n2 1 33893 33887 27179 XOR\n2 1 27170 27174 27163 AND\n2 1 33863 33865 7634 XOR\n",
"2 1 7634 7729 7721 XOR\n2 1 7721 7725 7714 AND\n2 1 33864 7634 7636 XOR\n1 1 31943 33218 INV\n2 1 32891 33218 7141 XOR\n2 1 7141 7108 7066 XOR\n2 1 7066 7067 7065 XOR\n1 1 7065 35370 INV\n2 1 7141 7093 7053 XOR\n2 1 32992 7053 35377 XOR\n2 1 35377 783 33878 XOR\n2 1 7141 7078 7043 XOR\n2 1 32879 7043 35385 XOR\n2 1 33218 6888 35361 XOR\n2 1 35361 799 33862 XOR\n2 1 32879 33218 6830 XOR\n2 1 6829 6830 7173 XOR\n2 1 7173 7133 35378 XOR\n2 1 35378 782 33879 XOR\n2 1 33879 33881 24286 XOR\n2 1 33880 24286 24288 XOR\n2 1 33879 33880 24303 XOR\n2 1 33862 7721 7720 XOR\n2 1 35370 790 33871 XOR\n2 1 33871 33873 7774 XOR\n2 1 33872 7774 7776 XOR\n2 1 33875 7776 7855 XOR\n2 1 33871 33872 7791 XOR\n2 1 35385 775 33886 XOR\n2 1 33886 27170 27169 XOR\n1 1 31940 33223 INV\n2 1 33223 32884 7103 XOR\n1 1 7103 7074 INV\n2 1 7074 32989 7072 XOR\n2 1 7072 7073 35366 XOR\n2 1 35366 794 33867 XOR\n2 1 33867 7636 7715 XOR\n2 1 7730 7715 7711 AND\n2 1 33223 35456 7048 XOR\n2 1 7047 7048 35382 XOR\n2 1 35382 778 33883 XOR\n2 1 7101 33223 7056 XOR\n2 1 7056 7057 7055 XOR\n1 1 7055 35375 INV\n2 1 35375 785 33876 XOR\n2 1 33870 33876 7781 XOR\n2 1 33876 7776 7858 XOR\n2 1 7781 7776 7857 XOR\n2 1 33875 7781 7867 XOR\n2 1 33871 7867 7863 XOR\n2 1 7867 7863 7850 AND\n2 1 7103 7095 7035 XOR\n2 1 32889 7035 35390 XOR\n2 1 35390 770 33891 XOR\n2 1 33867 33869 7635 XOR\n2 1 7711 7635 7639 XOR\n2 1 33874 33876 7777 XOR\n2 1 33883 24288 24367 XOR\n2 1 7635 7731 7716 XOR\n2 1 7731 7716 7707 AND\n2 1 33891 27085 27164 XOR\n2 1 33891 33893 27084 XOR\n2 1 27084 27180 27165 XOR\n2 1 27179 27164 27160 AND\n2 1 27160 27084 27088 XOR\n2 1 27180 27165 27156 AND\n2 1 7777 33875 7736 XOR\n2 1 33870 7736 7866 XOR\n2 1 7866 33870 7852 AND\n1 1 31941 33224 INV\n2 1 35452 33224 7143 XOR\n2 1 7143 7078 7054 XOR\n2 1 33224 7071 35367 XOR\n2 1 35367 793 33868 XOR\n2 1 33862 33868 7641 XOR\n2 1 7635 7641 7724 XOR\n2 1 33867 7641 7727 XOR\n2 1 33863 7727 7723 XOR\n2 1 7727 7723 7710 AND\n2 1 7651 7724 7722 XOR\n2 1 7722 7720 7713 AND\n2 1 33868 7636 7718 XOR\n2 1 7729 7718 7708 AND\n2 1 7707 7708 7610 XOR\n2 1 7610 7611 7657 XOR\n2 1 7657 7639 7656 XOR\n2 1 32877 33224 7045 XOR\n2 1 7710 7656 7704 XOR\n2 1 7143 7103 7046 XOR\n2 1 35453 7054 35376 XOR\n2 1 33866 33868 7637 XOR\n2 1 7714 7637 7640 XOR\n2 1 7637 7635 7597 XOR\n2 1 7634 7597 7719 XOR\n2 1 7728 7719 7706 AND\n2 1 7637 33867 7596 XOR\n2 1 33862 7596 7726 XOR\n2 1 7726 33862 7712 AND\n2 1 32990 7046 35383 XOR\n2 1 35383 777 33884 XOR\n2 1 7143 32989 7033 XOR\n2 1 7033 7034 35391 XOR\n2 1 35391 769 33892 XOR\n2 1 7044 7045 35384 XOR\n2 1 35384 776 33885 XOR\n2 1 7708 7636 7638 XOR\n2 1 7640 7638 7644 XOR\n2 1 33869 7644 7649 XOR\n2 1 33884 24288 24370 XOR\n2 1 33883 33885 24287 XOR\n2 1 24287 24383 24368 XOR\n2 1 33882 33884 24289 XOR\n2 1 33878 33884 24293 XOR\n2 1 24293 24288 24369 XOR\n2 1 33882 33885 24381 XOR\n2 1 24381 24303 24377 XOR\n2 1 24287 24293 24376 XOR\n2 1 24303 24376 24374 XOR\n2 1 24286 24381 24373 XOR\n2 1 33878 24373 24372 XOR\n2 1 33883 24293 24379 XOR\n2 1 33879 24379 24375 XOR\n2 1 24289 24287 24249 XOR\n2 1 24286 24249 24371 XOR\n2 1 24289 33883 24248 XOR\n2 1 33878 24248 24378 XOR\n2 1 33885 33879 24382 XOR\n2 1 33885 33880 24380 XOR\n",
"2 1 24373 24377 24366 AND\n2 1 24366 24289 24292 XOR\n2 1 24374 24372 24365 AND\n2 1 24378 33878 24364 AND\n2 1 24382 24367 24363 AND\n2 1 24363 24287 24291 XOR\n2 1 24379 24375 24362 AND\n2 1 24376 24369 24361 AND\n2 1 24381 24370 24360 AND\n2 1 24360 24288 24290 XOR\n2 1 24292 24290 24296 XOR\n2 1 33885 24296 24301 XOR\n2 1 24383 24368 24359 AND\n2 1 24359 24365 24310 XOR\n2 1 24310 24301 24357 XOR\n2 1 24359 24360 24262 XOR\n2 1 24262 24263 24309 XOR\n2 1 24309 24291 24308 XOR\n2 1 24362 24308 24356 XOR\n2 1 24380 24371 24358 AND\n2 1 24358 24361 24311 XOR\n2 1 24358 24364 24315 XOR\n2 1 24315 24287 24302 XOR\n2 1 24310 24302 24354 XOR\n2 1 24359 24311 24305 XOR\n2 1 24291 24311 24265 XOR\n2 1 24265 24290 24355 XOR\n2 1 24296 24315 24264 XOR\n2 1 33883 24264 24307 XOR\n2 1 24362 24305 24261 XOR\n2 1 33879 24261 24349 XOR\n2 1 24357 24356 24353 AND\n2 1 24353 24307 24348 XOR\n2 1 24353 24355 24352 XOR\n2 1 24354 24352 24351 AND\n2 1 24351 24307 24350 XOR\n2 1 24351 24363 24256 XOR\n2 1 24256 24292 24252 XOR\n2 1 33885 24252 24255 XOR\n2 1 24351 24301 24253 XOR\n2 1 33883 24252 24251 XOR\n2 1 24348 24349 24347 AND\n2 1 24347 24355 24346 XOR\n2 1 24353 24347 24345 XOR\n2 1 24347 24305 24260 XOR\n2 1 24347 24364 24259 XOR\n2 1 24259 24361 24254 XOR\n2 1 24254 24255 24338 XOR\n2 1 24355 24345 24344 AND\n2 1 24344 24352 24342 XOR\n2 1 24344 24362 24314 XOR\n2 1 24314 24308 24336 XOR\n2 1 33879 24314 24297 XOR\n2 1 24297 24260 24343 XOR\n2 1 24350 24342 24341 AND\n2 1 24341 24310 24300 XOR\n2 1 24300 24302 24340 XOR\n2 1 24341 24365 24258 XOR\n2 1 24297 24258 24250 XOR\n2 1 24287 24250 24257 XOR\n2 1 24254 24257 24339 XOR\n2 1 24300 24253 24337 XOR\n2 1 24250 24251 24335 XOR\n2 1 24336 24373 24334 AND\n2 1 24343 24372 24333 AND\n2 1 24346 33878 24332 AND\n2 1 24332 24334 24313 XOR\n2 1 24337 24367 24331 AND\n2 1 24340 24379 24330 AND\n2 1 24330 24331 24316 XOR\n2 1 24350 24369 24329 AND\n2 1 24329 24330 24267 XOR\n2 1 24338 24370 24328 AND\n2 1 24335 24368 24327 AND\n2 1 24327 24316 24306 XOR\n2 1 24327 24330 24282 XOR\n1 1 24282 24279 INV\n2 1 24327 24328 24278 XOR\n2 1 24328 24306 24266 XOR\n2 1 24339 24371 24326 AND\n2 1 24336 24377 24325 AND\n2 1 24343 24374 24324 AND\n2 1 24346 24378 24323 AND\n2 1 24323 24306 24272 XOR\n1 1 24272 24269 INV\n2 1 24337 24382 24322 AND\n2 1 24322 24326 24298 XOR\n2 1 24331 24322 24283 XOR\n1 1 24298 24276 INV\n2 1 24340 24375 24321 AND\n2 1 24329 24321 24285 XOR\n2 1 24350 24376 24320 AND\n2 1 24276 24320 24275 XOR\n2 1 24275 24313 24271 XOR\n2 1 24338 24381 24319 AND\n2 1 24319 24271 24274 XOR\n2 1 24335 24383 24318 AND\n2 1 24318 24319 24312 XOR\n2 1 24324 24312 24294 XOR\n2 1 24325 24294 24295 XOR\n2 1 24333 24295 24299 XOR\n2 1 24334 24299 24304 XOR\n2 1 24316 24304 35607 XOR\n2 1 35607 35600 8061 XOR\n2 1 24285 24312 24281 XOR\n2 1 24313 24281 24284 XOR\n2 1 24283 24284 24387 XOR\n2 1 24276 24281 24280 XOR\n2 1 24279 24280 24386 XOR\n2 1 24386 32954 7920 XOR\n2 1 24304 24278 24385 XOR\n2 1 24294 24271 24270 XOR\n2 1 24269 24270 35605 XOR\n1 1 35605 7927 INV\n2 1 32953 7927 8107 XOR\n2 1 24332 24299 24268 XOR\n2 1 24267 24268 35606 XOR\n2 1 35606 35599 7918 XOR\n2 1 24295 24266 35608 XOR\n2 1 35603 35608 8134 XOR\n1 1 8134 8067 INV\n2 1 8067 32798 8071 XOR\n2 1 24339 24380 24317 AND\n2 1 24328 24317 24277 XOR\n1 1 24277 24273 INV\n2 1 24273 24274 24384 XOR\n1 1 24386 35604 INV\n2 1 7641 7636 7717 XOR\n",
"2 1 7724 7717 7709 AND\n2 1 32798 35604 8174 XOR\n2 1 35598 35605 8172 XOR\n1 1 8172 8054 INV\n2 1 8197 8054 8065 XOR\n2 1 8054 35594 8052 XOR\n2 1 7707 7713 7658 XOR\n2 1 7706 7709 7659 XOR\n2 1 7639 7659 7613 XOR\n2 1 7613 7638 7703 XOR\n2 1 7707 7659 7653 XOR\n2 1 7710 7653 7609 XOR\n2 1 33863 7609 7697 XOR\n2 1 33892 27085 27167 XOR\n2 1 33890 33892 27086 XOR\n2 1 27163 27086 27089 XOR\n2 1 33886 33892 27090 XOR\n2 1 27090 27085 27166 XOR\n2 1 27084 27090 27173 XOR\n2 1 27100 27173 27171 XOR\n2 1 33891 27090 27176 XOR\n2 1 33887 27176 27172 XOR\n2 1 27086 27084 27046 XOR\n2 1 27083 27046 27168 XOR\n2 1 27086 33891 27045 XOR\n2 1 33886 27045 27175 XOR\n2 1 27171 27169 27162 AND\n2 1 27156 27162 27107 XOR\n2 1 27175 33886 27161 AND\n2 1 27176 27172 27159 AND\n2 1 27173 27166 27158 AND\n2 1 27178 27167 27157 AND\n2 1 27157 27085 27087 XOR\n2 1 27089 27087 27093 XOR\n2 1 33893 27093 27098 XOR\n2 1 27107 27098 27154 XOR\n2 1 27156 27157 27059 XOR\n2 1 27059 27060 27106 XOR\n2 1 27106 27088 27105 XOR\n2 1 27159 27105 27153 XOR\n2 1 27177 27168 27155 AND\n2 1 27155 27158 27108 XOR\n2 1 27155 27161 27112 XOR\n2 1 27112 27084 27099 XOR\n2 1 27107 27099 27151 XOR\n2 1 27156 27108 27102 XOR\n2 1 27088 27108 27062 XOR\n2 1 27062 27087 27152 XOR\n2 1 27093 27112 27061 XOR\n2 1 33891 27061 27104 XOR\n2 1 27159 27102 27058 XOR\n2 1 33887 27058 27146 XOR\n2 1 27154 27153 27150 AND\n2 1 27150 27104 27145 XOR\n2 1 27150 27152 27149 XOR\n2 1 27151 27149 27148 AND\n2 1 27148 27104 27147 XOR\n2 1 27148 27160 27053 XOR\n2 1 27053 27089 27049 XOR\n2 1 33893 27049 27052 XOR\n2 1 27148 27098 27050 XOR\n2 1 33891 27049 27048 XOR\n2 1 27145 27146 27144 AND\n2 1 27144 27152 27143 XOR\n2 1 27150 27144 27142 XOR\n2 1 27144 27102 27057 XOR\n2 1 27144 27161 27056 XOR\n2 1 27056 27158 27051 XOR\n2 1 27051 27052 27135 XOR\n2 1 27152 27142 27141 AND\n2 1 27141 27149 27139 XOR\n2 1 27141 27159 27111 XOR\n2 1 27111 27105 27133 XOR\n2 1 33887 27111 27094 XOR\n2 1 27094 27057 27140 XOR\n2 1 27147 27139 27138 AND\n2 1 27138 27107 27097 XOR\n2 1 27097 27099 27137 XOR\n2 1 27138 27162 27055 XOR\n2 1 27094 27055 27047 XOR\n2 1 27084 27047 27054 XOR\n2 1 27051 27054 27136 XOR\n2 1 27097 27050 27134 XOR\n2 1 27047 27048 27132 XOR\n2 1 27133 27170 27131 AND\n2 1 27140 27169 27130 AND\n2 1 27143 33886 27129 AND\n2 1 27129 27131 27110 XOR\n2 1 27134 27164 27128 AND\n2 1 27137 27176 27127 AND\n2 1 27127 27128 27113 XOR\n2 1 27147 27166 27126 AND\n2 1 27126 27127 27064 XOR\n2 1 27135 27167 27125 AND\n2 1 27132 27165 27124 AND\n2 1 27124 27113 27103 XOR\n2 1 27124 27127 27079 XOR\n1 1 27079 27076 INV\n2 1 27124 27125 27075 XOR\n2 1 27125 27103 27063 XOR\n2 1 27136 27168 27123 AND\n2 1 27133 27174 27122 AND\n2 1 27140 27171 27121 AND\n2 1 27143 27175 27120 AND\n2 1 27120 27103 27069 XOR\n1 1 27069 27066 INV\n2 1 27134 27179 27119 AND\n2 1 27119 27123 27095 XOR\n2 1 27128 27119 27080 XOR\n1 1 27095 27073 INV\n2 1 27137 27172 27118 AND\n2 1 27126 27118 27082 XOR\n2 1 27147 27173 27117 AND\n2 1 27073 27117 27072 XOR\n2 1 27072 27110 27068 XOR\n2 1 27135 27178 27116 AND\n2 1 27116 27068 27071 XOR\n2 1 27132 27180 27115 AND\n2 1 27115 27116 27109 XOR\n2 1 27121 27109 27091 XOR\n2 1 27122 27091 27092 XOR\n2 1 27130 27092 27096 XOR\n2 1 27131 27096 27101 XOR\n2 1 27113 27101 35665 XOR\n2 1 35661 35665 8143 XOR\n2 1 8141 35665 8098 XOR\n2 1 8151 8143 8082 XOR\n2 1 27082 27109 27078 XOR\n",
"2 1 27110 27078 27081 XOR\n2 1 27080 27081 27184 XOR\n2 1 27073 27078 27077 XOR\n2 1 27076 27077 27183 XOR\n2 1 27101 27075 27182 XOR\n2 1 27091 27068 27067 XOR\n2 1 27066 27067 35663 XOR\n2 1 35659 35663 8144 XOR\n2 1 8146 8144 8084 XOR\n2 1 27129 27096 27065 XOR\n2 1 27064 27065 35664 XOR\n2 1 27092 27063 35666 XOR\n2 1 35662 35666 8126 XOR\n2 1 8126 35664 7932 XOR\n1 1 8126 8086 INV\n2 1 8086 32796 8089 XOR\n2 1 27136 27177 27114 AND\n2 1 27125 27114 27074 XOR\n1 1 27074 27070 INV\n2 1 27070 27071 27181 XOR\n2 1 7706 7712 7663 XOR\n2 1 7663 7635 7650 XOR\n2 1 7658 7650 7702 XOR\n2 1 7644 7663 7612 XOR\n2 1 33867 7612 7655 XOR\n2 1 35376 784 33877 XOR\n2 1 33874 33877 7869 XOR\n2 1 33875 33877 7775 XOR\n2 1 7777 7775 7737 XOR\n2 1 7775 7871 7856 XOR\n2 1 7871 7856 7847 AND\n2 1 7869 7791 7865 XOR\n2 1 7774 7869 7861 XOR\n2 1 33870 7861 7860 XOR\n2 1 7869 7858 7848 AND\n2 1 7848 7776 7778 XOR\n2 1 7847 7848 7750 XOR\n2 1 7750 7751 7797 XOR\n2 1 7775 7781 7864 XOR\n2 1 7864 7857 7849 AND\n2 1 7791 7864 7862 XOR\n2 1 33877 33872 7868 XOR\n2 1 7862 7860 7853 AND\n2 1 7847 7853 7798 XOR\n2 1 33877 33871 7870 XOR\n2 1 7870 7855 7851 AND\n2 1 7851 7775 7779 XOR\n2 1 7861 7865 7854 AND\n2 1 7854 7777 7780 XOR\n2 1 7780 7778 7784 XOR\n2 1 33877 7784 7789 XOR\n2 1 7798 7789 7845 XOR\n2 1 7774 7737 7859 XOR\n2 1 7868 7859 7846 AND\n2 1 7846 7849 7799 XOR\n2 1 7846 7852 7803 XOR\n2 1 7803 7775 7790 XOR\n2 1 7798 7790 7842 XOR\n2 1 7847 7799 7793 XOR\n2 1 7850 7793 7749 XOR\n2 1 33871 7749 7837 XOR\n2 1 7784 7803 7752 XOR\n2 1 33875 7752 7795 XOR\n2 1 7658 7649 7705 XOR\n2 1 7705 7704 7701 AND\n2 1 7701 7703 7700 XOR\n2 1 7702 7700 7699 AND\n2 1 7699 7649 7601 XOR\n2 1 7699 7711 7604 XOR\n2 1 7604 7640 7600 XOR\n2 1 33869 7600 7603 XOR\n2 1 33867 7600 7599 XOR\n2 1 7701 7655 7696 XOR\n2 1 7696 7697 7695 AND\n2 1 7695 7653 7608 XOR\n2 1 7695 7712 7607 XOR\n2 1 7607 7709 7602 XOR\n2 1 7602 7603 7686 XOR\n2 1 7686 7718 7676 AND\n2 1 7686 7729 7667 AND\n2 1 7695 7703 7694 XOR\n2 1 7694 7726 7671 AND\n2 1 7694 33862 7680 AND\n2 1 7701 7695 7693 XOR\n2 1 7703 7693 7692 AND\n2 1 7692 7710 7662 XOR\n2 1 33863 7662 7645 XOR\n2 1 7645 7608 7691 XOR\n2 1 7691 7720 7681 AND\n2 1 7691 7722 7672 AND\n2 1 7662 7656 7684 XOR\n2 1 7684 7725 7673 AND\n2 1 7684 7721 7682 AND\n2 1 7699 7655 7698 XOR\n2 1 7698 7717 7677 AND\n2 1 7698 7724 7668 AND\n2 1 7680 7682 7661 XOR\n2 1 7692 7700 7690 XOR\n2 1 7698 7690 7689 AND\n2 1 7689 7658 7648 XOR\n2 1 7689 7713 7606 XOR\n2 1 7645 7606 7598 XOR\n2 1 7598 7599 7683 XOR\n2 1 7683 7716 7675 AND\n2 1 7683 7731 7666 AND\n2 1 7675 7676 7626 XOR\n2 1 7635 7598 7605 XOR\n2 1 7602 7605 7687 XOR\n2 1 7687 7719 7674 AND\n2 1 7687 7728 7665 AND\n2 1 7676 7665 7625 XOR\n1 1 7625 7621 INV\n2 1 7648 7601 7685 XOR\n2 1 7685 7715 7679 AND\n2 1 7685 7730 7670 AND\n2 1 7679 7670 7631 XOR\n2 1 7670 7674 7646 XOR\n1 1 7646 7624 INV\n2 1 7624 7668 7623 XOR\n2 1 7623 7661 7619 XOR\n2 1 7667 7619 7622 XOR\n2 1 7621 7622 7732 XOR\n2 1 7666 7667 7660 XOR\n2 1 7672 7660 7642 XOR\n2 1 7642 7619 7618 XOR\n2 1 7673 7642 7643 XOR\n2 1 7681 7643 7647 XOR\n2 1 7680 7647 7616 XOR\n",
"2 1 7682 7647 7652 XOR\n2 1 7652 7626 7733 XOR\n2 1 7648 7650 7688 XOR\n2 1 7688 7727 7678 AND\n2 1 7677 7678 7615 XOR\n2 1 7688 7723 7669 AND\n2 1 7677 7669 7633 XOR\n2 1 7633 7660 7629 XOR\n2 1 7661 7629 7632 XOR\n2 1 7631 7632 7735 XOR\n2 1 7675 7678 7630 XOR\n1 1 7630 7627 INV\n2 1 7624 7629 7628 XOR\n2 1 7627 7628 7734 XOR\n2 1 7615 7616 35632 XOR\n2 1 7678 7679 7664 XOR\n2 1 7664 7652 35633 XOR\n2 1 7675 7664 7654 XOR\n2 1 7676 7654 7614 XOR\n2 1 7643 7614 35634 XOR\n2 1 7671 7654 7620 XOR\n1 1 7620 7617 INV\n2 1 7617 7618 35631 XOR\n2 1 7932 7933 8198 XOR\n2 1 35606 7927 7926 XOR\n2 1 35664 35663 7893 XOR\n1 1 7733 32799 INV\n1 1 7734 32800 INV\n1 1 7735 32801 INV\n1 1 7732 32806 INV\n2 1 7797 7779 7796 XOR\n2 1 7850 7796 7844 XOR\n2 1 7845 7844 7841 AND\n2 1 7841 7795 7836 XOR\n2 1 7836 7837 7835 AND\n2 1 7841 7835 7833 XOR\n2 1 7835 7852 7747 XOR\n2 1 7747 7849 7742 XOR\n2 1 7835 7793 7748 XOR\n1 1 24384 33049 INV\n2 1 33049 7452 8059 XOR\n1 1 24385 33050 INV\n2 1 33050 7453 8057 XOR\n1 1 24387 33051 INV\n2 1 32953 33051 7924 XOR\n2 1 32791 33051 8173 XOR\n1 1 27183 33101 INV\n2 1 8141 33101 7876 XOR\n2 1 7876 7877 8221 XOR\n2 1 33101 35655 7935 XOR\n2 1 32796 33101 8156 XOR\n1 1 27184 33102 INV\n2 1 32797 33102 8176 XOR\n2 1 33102 32924 7891 XOR\n1 1 27181 33107 INV\n2 1 8122 33107 8120 XOR\n1 1 27182 33108 INV\n2 1 8086 33108 8117 XOR\n2 1 32795 33108 8149 XOR\n2 1 8149 32922 8104 XOR\n2 1 7779 7799 7753 XOR\n2 1 7753 7778 7843 XOR\n2 1 7835 7843 7834 XOR\n2 1 7841 7843 7840 XOR\n2 1 7842 7840 7839 AND\n2 1 7839 7795 7838 XOR\n2 1 7838 7864 7808 AND\n2 1 7839 7851 7744 XOR\n2 1 7744 7780 7740 XOR\n2 1 33877 7740 7743 XOR\n2 1 7742 7743 7826 XOR\n2 1 7826 7858 7816 AND\n2 1 7826 7869 7807 AND\n2 1 7839 7789 7741 XOR\n2 1 7834 33870 7820 AND\n2 1 7843 7833 7832 AND\n2 1 7832 7850 7802 XOR\n2 1 33871 7802 7785 XOR\n2 1 7785 7748 7831 XOR\n2 1 7831 7860 7821 AND\n2 1 7802 7796 7824 XOR\n2 1 7824 7861 7822 AND\n2 1 7824 7865 7813 AND\n2 1 7820 7822 7801 XOR\n2 1 7832 7840 7830 XOR\n2 1 7838 7830 7829 AND\n2 1 7829 7798 7788 XOR\n2 1 7788 7790 7828 XOR\n2 1 7828 7863 7809 AND\n2 1 7788 7741 7825 XOR\n2 1 7825 7870 7810 AND\n2 1 7825 7855 7819 AND\n2 1 7819 7810 7771 XOR\n2 1 7831 7862 7812 AND\n2 1 7828 7867 7818 AND\n2 1 7818 7819 7804 XOR\n2 1 7838 7857 7817 AND\n2 1 7817 7809 7773 XOR\n2 1 7817 7818 7755 XOR\n2 1 7829 7853 7746 XOR\n2 1 33875 7740 7739 XOR\n2 1 7785 7746 7738 XOR\n2 1 7738 7739 7823 XOR\n2 1 7823 7856 7815 AND\n2 1 7815 7816 7766 XOR\n2 1 7823 7871 7806 AND\n2 1 7806 7807 7800 XOR\n2 1 7773 7800 7769 XOR\n2 1 7812 7800 7782 XOR\n2 1 7815 7818 7770 XOR\n2 1 7815 7804 7794 XOR\n2 1 7813 7782 7783 XOR\n1 1 7770 7767 INV\n2 1 7821 7783 7787 XOR\n2 1 7801 7769 7772 XOR\n2 1 7771 7772 7875 XOR\n2 1 7775 7738 7745 XOR\n2 1 7820 7787 7756 XOR\n2 1 7755 7756 35620 XOR\n2 1 35615 35620 8162 XOR\n1 1 8162 8025 INV\n1 1 35620 7887 INV\n2 1 7887 35614 7886 XOR\n2 1 7885 7886 8217 XOR\n2 1 7816 7794 7754 XOR\n2 1 7783 7754 35622 XOR\n2 1 35617 35622 8130 XOR\n2 1 8130 32931 7992 XOR\n",
"1 1 7875 32805 INV\n2 1 32862 32805 8170 XOR\n2 1 7742 7745 7827 XOR\n2 1 7827 7859 7814 AND\n2 1 7810 7814 7786 XOR\n1 1 7786 7764 INV\n2 1 7764 7769 7768 XOR\n2 1 7827 7868 7805 AND\n2 1 7816 7805 7765 XOR\n1 1 7765 7761 INV\n2 1 7764 7808 7763 XOR\n2 1 7763 7801 7759 XOR\n2 1 7782 7759 7758 XOR\n2 1 7807 7759 7762 XOR\n2 1 7761 7762 7872 XOR\n2 1 7767 7768 7874 XOR\n1 1 7874 35618 INV\n2 1 7874 32862 7883 XOR\n2 1 7882 7883 8218 XOR\n2 1 32861 35618 8169 XOR\n1 1 7872 32803 INV\n2 1 32803 35616 8041 XOR\n2 1 32867 32803 8154 XOR\n2 1 8154 32930 8014 XOR\n1 1 8014 8012 INV\n2 1 8154 8148 8021 XOR\n2 1 7822 7787 7792 XOR\n2 1 7804 7792 35621 XOR\n2 1 35616 35621 8158 XOR\n2 1 7792 7766 7873 XOR\n1 1 8158 7999 INV\n2 1 35621 35615 7889 XOR\n2 1 7888 7889 8216 XOR\n1 1 7873 32804 INV\n2 1 32804 32803 8011 XOR\n2 1 7834 7866 7811 AND\n2 1 7811 7794 7760 XOR\n1 1 7760 7757 INV\n2 1 7757 7758 35619 XOR\n2 1 35619 32861 8043 XOR\n2 1 35614 35619 8165 XOR\n1 1 8165 8017 INV\n2 1 8017 35627 8015 XOR\n1 1 7084 33241 INV\n2 1 33241 32885 6915 XOR\n2 1 6915 6916 35272 XOR\n2 1 35272 888 33773 XOR\n2 1 33771 33773 13995 XOR\n2 1 13995 14091 14076 XOR\n2 1 13997 13995 13957 XOR\n2 1 33770 33773 14089 XOR\n2 1 14089 14012 14085 XOR\n2 1 33773 33767 14090 XOR\n2 1 33241 35408 6878 XOR\n2 1 6878 6879 7152 XOR\n2 1 7152 7149 35292 XOR\n2 1 35292 868 33793 XOR\n2 1 33793 33792 7191 XOR\n2 1 33791 33793 7214 XOR\n2 1 33792 7214 7216 XOR\n2 1 7221 7216 7297 XOR\n2 1 7304 7297 7289 AND\n2 1 33796 7216 7298 XOR\n2 1 33795 7216 7295 XOR\n2 1 7310 7295 7291 AND\n2 1 7291 7215 7219 XOR\n2 1 14090 14075 14071 AND\n2 1 14071 13995 13999 XOR\n2 1 14089 14078 14068 AND\n2 1 14068 13996 13998 XOR\n2 1 33241 35406 7003 XOR\n2 1 7002 7003 35293 XOR\n2 1 35293 867 33794 XOR\n2 1 33792 33794 7311 XOR\n2 1 33794 33796 7217 XOR\n2 1 7217 33795 7176 XOR\n2 1 7215 7311 7296 XOR\n2 1 7311 7296 7287 AND\n2 1 33794 33797 7309 XOR\n2 1 7309 7298 7288 AND\n2 1 7287 7288 7190 XOR\n2 1 7190 7191 7237 XOR\n2 1 7237 7219 7236 XOR\n2 1 7290 7236 7284 XOR\n2 1 7309 7231 7305 XOR\n2 1 7288 7216 7218 XOR\n2 1 7214 7309 7301 XOR\n2 1 7301 7305 7294 AND\n2 1 33790 7301 7300 XOR\n2 1 7302 7300 7293 AND\n2 1 7287 7293 7238 XOR\n2 1 7217 7215 7177 XOR\n2 1 7214 7177 7299 XOR\n2 1 7308 7299 7286 AND\n2 1 7286 7289 7239 XOR\n2 1 7219 7239 7193 XOR\n2 1 7193 7218 7283 XOR\n2 1 7287 7239 7233 XOR\n2 1 7294 7217 7220 XOR\n2 1 7220 7218 7224 XOR\n2 1 33797 7224 7229 XOR\n2 1 7238 7229 7285 XOR\n2 1 7285 7284 7281 AND\n2 1 7281 7283 7280 XOR\n2 1 13995 14001 14084 XOR\n2 1 14012 14084 14082 XOR\n2 1 14084 14077 14069 AND\n2 1 33790 7176 7306 XOR\n2 1 7306 33790 7292 AND\n2 1 7286 7292 7243 XOR\n2 1 7243 7215 7230 XOR\n2 1 7238 7230 7282 XOR\n2 1 7282 7280 7279 AND\n2 1 7279 7229 7181 XOR\n2 1 7279 7291 7184 XOR\n2 1 7184 7220 7180 XOR\n2 1 33797 7180 7183 XOR\n2 1 7224 7243 7192 XOR\n2 1 33795 7192 7235 XOR\n2 1 7281 7235 7276 XOR\n2 1 7279 7235 7278 XOR\n2 1 7278 7304 7248 AND\n2 1 33795 7180 7179 XOR\n2 1 7290 7233 7189 XOR\n2 1 33791 7189 7277 XOR\n2 1 7276 7277 7275 AND\n2 1 7275 7233 7188 XOR\n2 1 7275 7292 7187 XOR\n",
"2 1 7187 7289 7182 XOR\n2 1 7182 7183 7266 XOR\n2 1 7266 7309 7247 AND\n2 1 7266 7298 7256 AND\n2 1 7275 7283 7274 XOR\n2 1 7274 33790 7260 AND\n2 1 7274 7306 7251 AND\n2 1 7281 7275 7273 XOR\n2 1 7283 7273 7272 AND\n2 1 7272 7280 7270 XOR\n2 1 7278 7270 7269 AND\n2 1 7269 7238 7228 XOR\n2 1 7228 7181 7265 XOR\n2 1 7265 7295 7259 AND\n2 1 7228 7230 7268 XOR\n2 1 7272 7290 7242 XOR\n2 1 33791 7242 7225 XOR\n2 1 7225 7188 7271 XOR\n2 1 7271 7300 7261 AND\n2 1 7242 7236 7264 XOR\n2 1 7264 7305 7253 AND\n2 1 7264 7301 7262 AND\n2 1 7265 7310 7250 AND\n2 1 7260 7262 7241 XOR\n2 1 7259 7250 7211 XOR\n2 1 7269 7293 7186 XOR\n2 1 7225 7186 7178 XOR\n2 1 7215 7178 7185 XOR\n2 1 7182 7185 7267 XOR\n2 1 7267 7308 7245 AND\n2 1 7256 7245 7205 XOR\n1 1 7205 7201 INV\n2 1 7267 7299 7254 AND\n2 1 7250 7254 7226 XOR\n1 1 7226 7204 INV\n2 1 7204 7248 7203 XOR\n2 1 7203 7241 7199 XOR\n2 1 7247 7199 7202 XOR\n2 1 7201 7202 7312 XOR\n2 1 7178 7179 7263 XOR\n2 1 7263 7311 7246 AND\n2 1 7246 7247 7240 XOR\n2 1 7263 7296 7255 AND\n2 1 7255 7256 7206 XOR\n2 1 7268 7307 7258 AND\n2 1 7255 7258 7210 XOR\n1 1 7210 7207 INV\n2 1 7258 7259 7244 XOR\n2 1 7255 7244 7234 XOR\n2 1 7256 7234 7194 XOR\n2 1 7251 7234 7200 XOR\n1 1 7200 7197 INV\n2 1 7278 7297 7257 AND\n2 1 7257 7258 7195 XOR\n2 1 7268 7303 7249 AND\n2 1 7257 7249 7213 XOR\n2 1 7213 7240 7209 XOR\n2 1 7241 7209 7212 XOR\n2 1 7211 7212 7315 XOR\n2 1 7204 7209 7208 XOR\n2 1 7207 7208 7314 XOR\n2 1 7271 7302 7252 AND\n2 1 7252 7240 7222 XOR\n2 1 7253 7222 7223 XOR\n2 1 7223 7194 35613 XOR\n2 1 35597 35613 8140 XOR\n2 1 8140 35595 7880 XOR\n1 1 8140 8035 INV\n2 1 8173 8140 8125 XOR\n2 1 8035 35599 8034 XOR\n2 1 7222 7199 7198 XOR\n2 1 7197 7198 35609 XOR\n2 1 35594 35609 8175 XOR\n1 1 8175 8036 INV\n2 1 8036 32798 8106 XOR\n2 1 8106 8107 35476 XOR\n2 1 35476 757 33904 XOR\n2 1 8175 8174 8068 XOR\n2 1 35598 8068 35484 XOR\n2 1 35484 749 33912 XOR\n1 1 7312 32792 INV\n2 1 8185 32792 8060 XOR\n2 1 8060 8061 35487 XOR\n2 1 35487 746 33915 XOR\n2 1 33049 32792 8180 XOR\n2 1 8183 8180 8046 XOR\n2 1 33050 8046 35496 XOR\n2 1 35496 737 33924 XOR\n2 1 8188 8180 8075 XOR\n2 1 32959 8075 35479 XOR\n2 1 35479 754 33907 XOR\n2 1 8180 35596 8002 XOR\n1 1 8002 8000 INV\n2 1 32792 7453 7984 XOR\n1 1 7314 32793 INV\n2 1 32793 24386 8053 XOR\n2 1 8052 8053 35492 XOR\n2 1 35492 741 33920 XOR\n2 1 8035 32793 8064 XOR\n2 1 32953 32793 8195 XOR\n2 1 8195 8172 8047 XOR\n2 1 35609 8047 35468 XOR\n2 1 35468 765 33896 XOR\n2 1 8195 8173 8070 XOR\n2 1 8070 8071 8069 XOR\n1 1 8069 35483 INV\n2 1 35483 750 33911 XOR\n2 1 33911 33912 31160 XOR\n1 1 7315 32794 INV\n2 1 32794 8125 35466 XOR\n2 1 32954 32794 8196 XOR\n2 1 8196 8134 8072 XOR\n2 1 8196 8174 8063 XOR\n2 1 32791 8072 35482 XOR\n2 1 35482 751 33910 XOR\n2 1 8063 8064 8062 XOR\n1 1 8062 35467 INV\n2 1 35467 766 33895 XOR\n2 1 33895 33896 8277 XOR\n2 1 35466 767 33894 XOR\n2 1 8196 8133 7947 XOR\n2 1 33051 7947 35474 XOR\n2 1 35474 759 33902 XOR\n2 1 13994 13957 14079 XOR\n2 1 35608 35613 8132 XOR\n2 1 8183 8132 8073 XOR\n2 1 35597 8073 35481 XOR\n2 1 8173 8132 8055 XOR\n",
"2 1 32954 8055 35490 XOR\n2 1 35490 743 33918 XOR\n2 1 35481 752 33909 XOR\n2 1 33907 33909 8401 XOR\n1 1 8132 7928 INV\n2 1 7928 35607 8050 XOR\n2 1 7928 35609 7925 XOR\n2 1 7925 7926 8200 XOR\n2 1 8200 8197 35493 XOR\n2 1 35493 740 33921 XOR\n2 1 33909 33904 8494 XOR\n2 1 33918 33924 8547 XOR\n2 1 7928 32960 7963 XOR\n2 1 8132 32794 7923 XOR\n2 1 7923 7924 8201 XOR\n2 1 8201 8174 35491 XOR\n2 1 35491 742 33919 XOR\n2 1 33919 33920 8557 XOR\n2 1 33919 33921 8540 XOR\n2 1 33920 8540 8542 XOR\n2 1 33924 8542 8624 XOR\n2 1 8547 8542 8623 XOR\n2 1 33921 33920 8517 XOR\n2 1 7261 7223 7227 XOR\n2 1 7260 7227 7196 XOR\n2 1 7195 7196 35610 XOR\n2 1 35606 35610 8187 XOR\n2 1 8188 8187 8051 XOR\n1 1 8051 8049 INV\n2 1 8049 8050 35494 XOR\n2 1 35494 739 33922 XOR\n2 1 8187 8036 8033 XOR\n2 1 8033 8034 35469 XOR\n2 1 8067 35610 8066 XOR\n2 1 8065 8066 35485 XOR\n2 1 35485 748 33913 XOR\n2 1 8202 8187 35477 XOR\n2 1 35477 756 33905 XOR\n2 1 35469 764 33897 XOR\n2 1 33897 33896 8237 XOR\n2 1 35610 35600 7881 XOR\n2 1 7880 7881 8219 XOR\n2 1 33895 33897 8260 XOR\n2 1 33896 8260 8262 XOR\n2 1 33905 33904 8377 XOR\n2 1 7262 7227 7232 XOR\n2 1 7244 7232 35611 XOR\n2 1 8134 35611 7917 XOR\n2 1 7232 7206 7313 XOR\n1 1 7313 35612 INV\n2 1 7313 35603 7964 XOR\n2 1 7963 7964 35473 XOR\n2 1 35473 760 33901 XOR\n2 1 33901 33895 8356 XOR\n2 1 33901 33896 8354 XOR\n2 1 33050 35612 8177 XOR\n2 1 8177 32959 7983 XOR\n2 1 8177 8133 8045 XOR\n2 1 8185 8177 8074 XOR\n2 1 35608 8045 35497 XOR\n2 1 35497 736 33925 XOR\n2 1 33925 33920 8634 XOR\n2 1 33925 33919 8636 XOR\n2 1 32960 8074 35480 XOR\n2 1 35480 753 33908 XOR\n2 1 33902 33908 8407 XOR\n2 1 8401 8407 8490 XOR\n2 1 33907 8407 8493 XOR\n2 1 35607 35611 8184 XOR\n2 1 8185 8184 8048 XOR\n2 1 33049 8048 35495 XOR\n2 1 35495 738 33923 XOR\n2 1 8219 8184 35470 XOR\n2 1 8078 8184 8076 XOR\n2 1 35470 763 33898 XOR\n2 1 33896 33898 8357 XOR\n2 1 33898 33901 8355 XOR\n2 1 8260 8355 8347 XOR\n2 1 33894 8347 8346 XOR\n2 1 8355 8277 8351 XOR\n2 1 8347 8351 8340 AND\n2 1 7917 7918 8204 XOR\n2 1 8204 8188 35486 XOR\n2 1 35486 747 33914 XOR\n2 1 33923 33925 8541 XOR\n2 1 8541 8547 8630 XOR\n2 1 8630 8623 8615 AND\n2 1 8557 8630 8628 XOR\n2 1 33922 33925 8635 XOR\n2 1 8635 8624 8614 AND\n2 1 8540 8635 8627 XOR\n2 1 33918 8627 8626 XOR\n2 1 8628 8626 8619 AND\n2 1 33920 33922 8637 XOR\n2 1 8541 8637 8622 XOR\n2 1 8637 8622 8613 AND\n2 1 8613 8614 8516 XOR\n2 1 8516 8517 8563 XOR\n2 1 33923 8547 8633 XOR\n2 1 33922 33924 8543 XOR\n2 1 8543 8541 8503 XOR\n2 1 8540 8503 8625 XOR\n2 1 8634 8625 8612 AND\n2 1 8614 8542 8544 XOR\n2 1 8613 8619 8564 XOR\n2 1 33923 8542 8621 XOR\n2 1 8612 8615 8565 XOR\n2 1 8613 8565 8559 XOR\n2 1 33919 8633 8629 XOR\n2 1 8633 8629 8616 AND\n2 1 8635 8557 8631 XOR\n2 1 8627 8631 8620 AND\n2 1 8620 8543 8546 XOR\n2 1 8546 8544 8550 XOR\n2 1 33925 8550 8555 XOR\n2 1 8564 8555 8611 XOR\n2 1 33911 33913 31143 XOR\n2 1 33912 31143 31145 XOR\n2 1 33915 31145 31224 XOR\n2 1 33912 33914 31240 XOR\n2 1 33913 33912 31120 XOR\n2 1 35611 7452 8001 XOR\n2 1 8000 8001 35471 XOR\n2 1 35471 762 33899 XOR\n2 1 33899 8262 8341 XOR\n2 1 33899 33901 8261 XOR\n2 1 8356 8341 8337 AND\n2 1 8261 8357 8342 XOR\n",
"2 1 8357 8342 8333 AND\n2 1 8337 8261 8265 XOR\n2 1 7983 7984 7982 XOR\n1 1 7982 35472 INV\n2 1 35472 761 33900 XOR\n2 1 33898 33900 8263 XOR\n2 1 8263 33899 8222 XOR\n2 1 8340 8263 8266 XOR\n2 1 8263 8261 8223 XOR\n2 1 8260 8223 8345 XOR\n2 1 33894 8222 8352 XOR\n2 1 33894 33900 8267 XOR\n2 1 33899 8267 8353 XOR\n2 1 33895 8353 8349 XOR\n2 1 8352 33894 8338 AND\n2 1 8353 8349 8336 AND\n2 1 8354 8345 8332 AND\n2 1 8332 8338 8289 XOR\n2 1 8261 8267 8350 XOR\n2 1 8277 8350 8348 XOR\n2 1 8348 8346 8339 AND\n2 1 8289 8261 8276 XOR\n2 1 8267 8262 8343 XOR\n2 1 8350 8343 8335 AND\n2 1 8332 8335 8285 XOR\n2 1 8333 8285 8279 XOR\n2 1 8336 8279 8235 XOR\n2 1 33895 8235 8323 XOR\n2 1 8265 8285 8239 XOR\n2 1 8183 7313 8058 XOR\n2 1 8058 8059 35488 XOR\n2 1 35488 745 33916 XOR\n2 1 33916 31145 31227 XOR\n2 1 33914 33916 31146 XOR\n2 1 33910 33916 31150 XOR\n2 1 31150 31145 31226 XOR\n2 1 33915 31150 31236 XOR\n2 1 33911 31236 31232 XOR\n2 1 31146 33915 31105 XOR\n2 1 33910 31105 31235 XOR\n2 1 31235 33910 31221 AND\n2 1 31236 31232 31219 AND\n2 1 8333 8339 8284 XOR\n2 1 8284 8276 8328 XOR\n2 1 33900 8262 8344 XOR\n2 1 8355 8344 8334 AND\n2 1 8333 8334 8236 XOR\n2 1 8334 8262 8264 XOR\n2 1 8266 8264 8270 XOR\n2 1 33901 8270 8275 XOR\n2 1 8284 8275 8331 XOR\n2 1 8236 8237 8283 XOR\n2 1 8283 8265 8282 XOR\n2 1 8239 8264 8329 XOR\n2 1 8270 8289 8238 XOR\n2 1 33899 8238 8281 XOR\n2 1 8543 33923 8502 XOR\n2 1 33918 8502 8632 XOR\n2 1 8632 33918 8618 AND\n2 1 8612 8618 8569 XOR\n2 1 8569 8541 8556 XOR\n2 1 8564 8556 8608 XOR\n2 1 8550 8569 8518 XOR\n2 1 33923 8518 8561 XOR\n2 1 8616 8559 8515 XOR\n2 1 33919 8515 8603 XOR\n2 1 8636 8621 8617 AND\n2 1 8617 8541 8545 XOR\n2 1 8545 8565 8519 XOR\n2 1 8563 8545 8562 XOR\n2 1 8616 8562 8610 XOR\n2 1 8611 8610 8607 AND\n2 1 8607 8561 8602 XOR\n2 1 8602 8603 8601 AND\n2 1 8601 8559 8514 XOR\n2 1 8607 8601 8599 XOR\n2 1 8519 8544 8609 XOR\n2 1 8609 8599 8598 AND\n2 1 8607 8609 8606 XOR\n2 1 8608 8606 8605 AND\n2 1 8605 8617 8510 XOR\n2 1 8510 8546 8506 XOR\n2 1 33925 8506 8509 XOR\n2 1 8605 8555 8507 XOR\n2 1 8605 8561 8604 XOR\n2 1 8604 8630 8574 AND\n2 1 8598 8606 8596 XOR\n2 1 8604 8596 8595 AND\n2 1 8595 8564 8554 XOR\n2 1 8598 8616 8568 XOR\n2 1 33919 8568 8551 XOR\n2 1 8551 8514 8597 XOR\n2 1 8597 8626 8587 AND\n2 1 8597 8628 8578 AND\n2 1 8601 8609 8600 XOR\n2 1 8600 8632 8577 AND\n2 1 8600 33918 8586 AND\n2 1 8568 8562 8590 XOR\n2 1 8590 8627 8588 AND\n2 1 8590 8631 8579 AND\n2 1 8554 8556 8594 XOR\n2 1 8594 8629 8575 AND\n2 1 8586 8588 8567 XOR\n2 1 8604 8623 8583 AND\n2 1 8583 8575 8539 XOR\n2 1 8595 8619 8512 XOR\n2 1 8551 8512 8504 XOR\n2 1 8554 8507 8591 XOR\n2 1 8591 8636 8576 AND\n2 1 8591 8621 8585 AND\n2 1 8585 8576 8537 XOR\n2 1 8541 8504 8511 XOR\n2 1 33923 8506 8505 XOR\n2 1 8504 8505 8589 XOR\n2 1 8589 8637 8572 AND\n2 1 8589 8622 8581 AND\n2 1 8594 8633 8584 AND\n2 1 8583 8584 8521 XOR\n2 1 8584 8585 8570 XOR\n2 1 8581 8570 8560 XOR\n2 1 8577 8560 8526 XOR\n2 1 8581 8584 8536 XOR\n1 1 8536 8533 INV\n1 1 8526 8523 INV\n2 1 8336 8282 8330 XOR\n2 1 8331 8330 8327 AND\n2 1 8327 8329 8326 XOR\n2 1 8328 8326 8325 AND\n",
"2 1 8325 8281 8324 XOR\n2 1 8325 8275 8227 XOR\n2 1 8324 8350 8294 AND\n2 1 8324 8343 8303 AND\n2 1 8327 8281 8322 XOR\n2 1 8322 8323 8321 AND\n2 1 8321 8329 8320 XOR\n2 1 8321 8338 8233 XOR\n2 1 8233 8335 8228 XOR\n2 1 8321 8279 8234 XOR\n2 1 8320 33894 8306 AND\n2 1 8320 8352 8297 AND\n2 1 8327 8321 8319 XOR\n2 1 8329 8319 8318 AND\n2 1 8318 8336 8288 XOR\n2 1 8288 8282 8310 XOR\n2 1 8310 8351 8299 AND\n2 1 8310 8347 8308 AND\n2 1 33895 8288 8271 XOR\n2 1 8271 8234 8317 XOR\n2 1 8317 8348 8298 AND\n2 1 8317 8346 8307 AND\n2 1 8306 8308 8287 XOR\n2 1 8318 8326 8316 XOR\n2 1 8324 8316 8315 AND\n2 1 8315 8339 8232 XOR\n2 1 8271 8232 8224 XOR\n2 1 8261 8224 8231 XOR\n2 1 8315 8284 8274 XOR\n2 1 8274 8276 8314 XOR\n2 1 8274 8227 8311 XOR\n2 1 8314 8349 8295 AND\n2 1 8303 8295 8259 XOR\n2 1 8311 8356 8296 AND\n2 1 8311 8341 8305 AND\n2 1 8305 8296 8257 XOR\n2 1 8314 8353 8304 AND\n2 1 8304 8305 8290 XOR\n2 1 8303 8304 8241 XOR\n2 1 8228 8231 8313 XOR\n2 1 8313 8345 8300 AND\n2 1 8313 8354 8291 AND\n2 1 8296 8300 8272 XOR\n1 1 8272 8250 INV\n2 1 8250 8294 8249 XOR\n2 1 8249 8287 8245 XOR\n2 1 8601 8618 8513 XOR\n2 1 8513 8615 8508 XOR\n2 1 8508 8511 8593 XOR\n2 1 8593 8625 8580 AND\n2 1 8508 8509 8592 XOR\n2 1 8592 8635 8573 AND\n2 1 8572 8573 8566 XOR\n2 1 8539 8566 8535 XOR\n2 1 8567 8535 8538 XOR\n2 1 8537 8538 8641 XOR\n2 1 8578 8566 8548 XOR\n2 1 8579 8548 8549 XOR\n2 1 8587 8549 8553 XOR\n2 1 8586 8553 8522 XOR\n2 1 8521 8522 35811 XOR\n2 1 8588 8553 8558 XOR\n2 1 8570 8558 35812 XOR\n2 1 8576 8580 8552 XOR\n1 1 8552 8530 INV\n2 1 8530 8574 8529 XOR\n2 1 8529 8567 8525 XOR\n2 1 8573 8525 8528 XOR\n2 1 8548 8525 8524 XOR\n2 1 8523 8524 35810 XOR\n2 1 8530 8535 8534 XOR\n2 1 8533 8534 8640 XOR\n2 1 8592 8624 8582 AND\n2 1 8582 8560 8520 XOR\n2 1 8581 8582 8532 XOR\n2 1 8558 8532 8639 XOR\n1 1 8639 35813 INV\n2 1 8549 8520 35814 XOR\n1 1 8640 32809 INV\n1 1 8641 32810 INV\n2 1 8593 8634 8571 AND\n2 1 8582 8571 8531 XOR\n1 1 8531 8527 INV\n2 1 8527 8528 8638 XOR\n1 1 8638 32813 INV\n2 1 13994 14089 14081 XOR\n2 1 33766 14081 14080 XOR\n2 1 14082 14080 14073 AND\n2 1 14081 14085 14074 AND\n2 1 14074 13997 14000 XOR\n2 1 14000 13998 14004 XOR\n2 1 33773 14004 14010 XOR\n2 1 8325 8337 8230 XOR\n2 1 8230 8266 8226 XOR\n2 1 33899 8226 8225 XOR\n2 1 8224 8225 8309 XOR\n2 1 8309 8357 8292 AND\n2 1 8309 8342 8301 AND\n2 1 8301 8304 8256 XOR\n1 1 8256 8253 INV\n2 1 33901 8226 8229 XOR\n2 1 8228 8229 8312 XOR\n2 1 8312 8344 8302 AND\n2 1 8302 8291 8251 XOR\n2 1 8312 8355 8293 AND\n2 1 8292 8293 8286 XOR\n2 1 8259 8286 8255 XOR\n2 1 8287 8255 8258 XOR\n2 1 8257 8258 8361 XOR\n2 1 8298 8286 8268 XOR\n2 1 8250 8255 8254 XOR\n1 1 8251 8247 INV\n2 1 8301 8290 8280 XOR\n2 1 8299 8268 8269 XOR\n2 1 8301 8302 8252 XOR\n2 1 8253 8254 8360 XOR\n2 1 8293 8245 8248 XOR\n2 1 8247 8248 8358 XOR\n2 1 8297 8280 8246 XOR\n2 1 8302 8280 8240 XOR\n2 1 8269 8240 35855 XOR\n1 1 8246 8243 INV\n2 1 8268 8245 8244 XOR\n2 1 8243 8244 35851 XOR\n2 1 8307 8269 8273 XOR\n2 1 8308 8273 8278 XOR\n2 1 8290 8278 35853 XOR\n2 1 8278 8252 8359 XOR\n",
"1 1 8359 35854 INV\n1 1 35853 8698 INV\n2 1 8306 8273 8242 XOR\n2 1 8241 8242 35852 XOR\n1 1 8360 32807 INV\n1 1 8361 32808 INV\n1 1 8358 32812 INV\n2 1 8359 32812 8873 XOR\n2 1 33773 33768 14088 XOR\n2 1 14088 14079 14066 AND\n2 1 14066 14069 14020 XOR\n2 1 13999 14020 13973 XOR\n2 1 13973 13998 14063 XOR\n2 1 14066 14072 14024 XOR\n2 1 14024 13995 14011 XOR\n2 1 14004 14024 13972 XOR\n2 1 33771 13972 14016 XOR\n2 1 14091 14076 14067 AND\n2 1 14067 14020 14014 XOR\n2 1 14067 14068 13970 XOR\n2 1 14070 14014 13969 XOR\n2 1 33767 13969 14057 XOR\n2 1 14067 14073 14019 XOR\n2 1 14019 14010 14065 XOR\n2 1 14019 14011 14062 XOR\n2 1 13970 13971 14018 XOR\n2 1 14018 13999 14017 XOR\n2 1 14070 14017 14064 XOR\n2 1 14065 14064 14061 AND\n2 1 14061 14016 14056 XOR\n2 1 14056 14057 14055 AND\n2 1 14055 14063 14054 XOR\n2 1 14061 14055 14053 XOR\n2 1 14063 14053 14052 AND\n2 1 14055 14014 13968 XOR\n2 1 14061 14063 14060 XOR\n2 1 14062 14060 14059 AND\n2 1 14059 14010 13961 XOR\n2 1 14059 14071 13964 XOR\n2 1 14059 14016 14058 XOR\n2 1 14058 14077 14037 AND\n2 1 14058 14084 14028 AND\n2 1 13964 14000 13960 XOR\n2 1 33771 13960 13959 XOR\n2 1 33773 13960 13963 XOR\n2 1 14054 14086 14031 AND\n2 1 14052 14070 14023 XOR\n2 1 33767 14023 14005 XOR\n2 1 14005 13968 14051 XOR\n2 1 14051 14082 14032 AND\n2 1 14051 14080 14041 AND\n2 1 14052 14060 14050 XOR\n2 1 14058 14050 14049 AND\n2 1 14049 14019 14009 XOR\n2 1 14009 13961 14045 XOR\n2 1 14045 14075 14039 AND\n2 1 14045 14090 14030 AND\n2 1 14039 14030 13991 XOR\n2 1 14009 14011 14048 XOR\n2 1 14048 14083 14029 AND\n2 1 14048 14087 14038 AND\n2 1 14038 14039 14007 XOR\n2 1 14037 14029 13993 XOR\n2 1 14037 14038 13975 XOR\n2 1 14023 14017 14044 XOR\n2 1 14044 14085 14033 AND\n2 1 14044 14081 14042 AND\n2 1 14055 14072 13967 XOR\n2 1 13967 14069 13962 XOR\n2 1 13962 13963 14046 XOR\n2 1 14046 14089 14027 AND\n2 1 14046 14078 14036 AND\n2 1 14049 14073 13966 XOR\n2 1 14005 13966 13958 XOR\n2 1 13995 13958 13965 XOR\n2 1 13958 13959 14043 XOR\n2 1 14043 14091 14026 AND\n2 1 14026 14027 14021 XOR\n2 1 13962 13965 14047 XOR\n2 1 14047 14088 14025 AND\n2 1 14036 14025 13985 XOR\n2 1 14032 14021 14002 XOR\n2 1 14033 14002 14003 XOR\n2 1 13993 14021 13989 XOR\n2 1 14043 14076 14035 AND\n2 1 14035 14038 13990 XOR\n2 1 14035 14007 14015 XOR\n2 1 14031 14015 13980 XOR\n1 1 13980 13977 INV\n2 1 14036 14015 13974 XOR\n2 1 14003 13974 35654 XOR\n2 1 35654 35658 8127 XOR\n2 1 8149 8127 8079 XOR\n2 1 35662 8079 35593 XOR\n2 1 35593 640 34021 XOR\n2 1 8127 35666 8092 XOR\n2 1 8092 8093 35585 XOR\n2 1 35585 648 34013 XOR\n2 1 8176 8127 8116 XOR\n2 1 35654 35666 8138 XOR\n2 1 8138 35657 8124 XOR\n2 1 8176 8138 7936 XOR\n1 1 13985 13981 INV\n1 1 13990 13987 INV\n2 1 14047 14079 14034 AND\n2 1 14030 14034 14006 XOR\n2 1 32917 7936 35562 XOR\n2 1 35562 671 33990 XOR\n2 1 14041 14003 14008 XOR\n2 1 14042 14008 14013 XOR\n2 1 14007 14013 35652 XOR\n1 1 35652 7931 INV\n2 1 35665 7931 8121 XOR\n2 1 8120 8121 35567 XOR\n2 1 35567 666 33995 XOR\n2 1 35652 35657 8192 XOR\n2 1 8192 8146 8097 XOR\n2 1 8097 8098 35582 XOR\n2 1 35582 651 34010 XOR\n2 1 8198 8192 35590 XOR\n2 1 35590 643 34018 XOR\n2 1 34010 34013 30538 XOR\n2 1 34018 34021 31518 XOR\n2 1 35656 7931 7930 XOR\n2 1 14035 14036 13986 XOR\n2 1 14013 13986 14093 XOR\n2 1 35658 14093 8118 XOR\n2 1 8117 8118 35569 XOR\n",
"2 1 35569 664 33997 XOR\n2 1 33995 33997 30584 XOR\n1 1 14093 35653 INV\n2 1 35653 32923 8191 XOR\n2 1 8191 8126 8102 XOR\n2 1 35654 8102 35577 XOR\n2 1 8191 33107 8080 XOR\n2 1 8080 8081 35592 XOR\n2 1 8191 8151 8094 XOR\n2 1 33108 8094 35584 XOR\n2 1 35584 649 34012 XOR\n2 1 35592 641 34020 XOR\n2 1 34010 34012 30446 XOR\n2 1 35577 656 34005 XOR\n2 1 34018 34020 31426 XOR\n1 1 14006 13984 INV\n2 1 13984 14028 13983 XOR\n2 1 13984 13989 13988 XOR\n2 1 13987 13988 14094 XOR\n1 1 14094 32873 INV\n2 1 32873 32924 8181 XOR\n1 1 8181 8090 INV\n2 1 8090 8176 8088 XOR\n2 1 8088 8089 35587 XOR\n2 1 8181 8144 8112 XOR\n2 1 35587 646 34015 XOR\n2 1 8221 8181 35579 XOR\n2 1 35579 654 34007 XOR\n2 1 8144 32873 7934 XOR\n2 1 7934 7935 35564 XOR\n2 1 35564 669 33992 XOR\n2 1 34013 34007 30539 XOR\n2 1 33997 33992 30677 XOR\n2 1 34021 34015 31519 XOR\n2 1 14054 33766 14040 AND\n2 1 14040 14042 14022 XOR\n2 1 14022 13989 13992 XOR\n2 1 13991 13992 14095 XOR\n2 1 13983 14022 13979 XOR\n2 1 14027 13979 13982 XOR\n2 1 13981 13982 14092 XOR\n2 1 14002 13979 13978 XOR\n2 1 13977 13978 35650 XOR\n2 1 35650 8112 35572 XOR\n2 1 35572 661 34000 XOR\n2 1 35650 35655 8166 XOR\n2 1 8166 8156 8087 XOR\n2 1 35659 8087 35588 XOR\n2 1 35588 645 34016 XOR\n2 1 8166 35663 8099 XOR\n2 1 8099 8100 35580 XOR\n2 1 35580 653 34008 XOR\n2 1 8138 35650 7892 XOR\n2 1 7892 7893 8214 XOR\n2 1 8214 8146 35565 XOR\n2 1 35565 668 33993 XOR\n2 1 34005 34000 28717 XOR\n2 1 34007 34008 30460 XOR\n2 1 30538 30460 30534 XOR\n2 1 34008 34010 30540 XOR\n2 1 34013 34008 30537 XOR\n2 1 33993 33992 30560 XOR\n2 1 34015 34016 31440 XOR\n2 1 31518 31440 31514 XOR\n2 1 34016 34018 31520 XOR\n2 1 34021 34016 31517 XOR\n1 1 14095 32874 INV\n2 1 32874 8116 35570 XOR\n2 1 8138 32874 7890 XOR\n2 1 32874 32917 8189 XOR\n2 1 8189 8141 8101 XOR\n2 1 33102 8101 35578 XOR\n2 1 8189 8156 8114 XOR\n2 1 8189 8126 8091 XOR\n2 1 32797 8091 35586 XOR\n2 1 35578 655 34006 XOR\n2 1 35586 647 34014 XOR\n2 1 34006 34012 30450 XOR\n2 1 34014 34020 31430 XOR\n2 1 35570 663 33998 XOR\n2 1 7890 7891 8215 XOR\n2 1 8215 8156 35563 XOR\n2 1 35563 670 33991 XOR\n2 1 33991 33993 30583 XOR\n2 1 33992 30583 30585 XOR\n2 1 33995 30585 30664 XOR\n2 1 33991 33992 30600 XOR\n2 1 33997 33991 30679 XOR\n2 1 30679 30664 30660 AND\n2 1 30660 30584 30588 XOR\n1 1 14092 32880 INV\n2 1 14093 32880 8105 XOR\n2 1 8104 8105 8103 XOR\n1 1 8103 35576 INV\n2 1 35576 657 34004 XOR\n2 1 32880 8082 35591 XOR\n2 1 32880 33107 8161 XOR\n2 1 8192 8161 8108 XOR\n2 1 32802 8108 35575 XOR\n2 1 8161 8149 8119 XOR\n2 1 32923 8119 35568 XOR\n2 1 8161 35661 8095 XOR\n2 1 8095 8096 35583 XOR\n2 1 35575 658 34003 XOR\n2 1 35583 650 34011 XOR\n2 1 35568 665 33996 XOR\n2 1 34003 34005 28624 XOR\n2 1 33998 34004 28630 XOR\n2 1 28624 28630 28713 XOR\n2 1 34003 28630 28716 XOR\n2 1 34011 34013 30444 XOR\n2 1 30444 30540 30525 XOR\n2 1 30444 30450 30533 XOR\n2 1 30460 30533 30531 XOR\n2 1 34011 30450 30536 XOR\n2 1 34007 30536 30532 XOR\n2 1 30446 30444 30406 XOR\n2 1 30446 34011 30405 XOR\n2 1 34006 30405 30535 XOR\n2 1 30535 34006 30521 AND\n2 1 30536 30532 30519 AND\n2 1 30540 30525 30516 AND\n2 1 33996 30585 30667 XOR\n2 1 33990 33996 30590 XOR\n2 1 30590 30585 30666 XOR\n2 1 30584 30590 30673 XOR\n2 1 30600 30673 30671 XOR\n2 1 33995 30590 30676 XOR\n",
"2 1 33991 30676 30672 XOR\n2 1 30676 30672 30659 AND\n2 1 30673 30666 30658 AND\n2 1 35591 642 34019 XOR\n2 1 34019 34021 31424 XOR\n2 1 31424 31520 31505 XOR\n2 1 31424 31430 31513 XOR\n2 1 31440 31513 31511 XOR\n2 1 34019 31430 31516 XOR\n2 1 34015 31516 31512 XOR\n2 1 31426 31424 31386 XOR\n2 1 31426 34019 31385 XOR\n2 1 34014 31385 31515 XOR\n2 1 31515 34014 31501 AND\n2 1 31516 31512 31499 AND\n2 1 31520 31505 31496 AND\n2 1 14040 14008 13976 XOR\n2 1 13975 13976 35651 XOR\n2 1 8086 35651 8085 XOR\n2 1 8084 8085 8083 XOR\n1 1 8083 35589 INV\n2 1 35589 644 34017 XOR\n2 1 35651 35664 8152 XOR\n2 1 8152 8143 8123 XOR\n2 1 8166 8152 8111 XOR\n1 1 8111 8109 INV\n2 1 8123 8124 35566 XOR\n2 1 35566 667 33994 XOR\n2 1 8220 8152 35581 XOR\n2 1 35581 652 34009 XOR\n2 1 34007 34009 30443 XOR\n2 1 34008 30443 30445 XOR\n2 1 34012 30445 30527 XOR\n2 1 34011 30445 30524 XOR\n2 1 30450 30445 30526 XOR\n2 1 30443 30538 30530 XOR\n2 1 34006 30530 30529 XOR\n2 1 34009 34008 30420 XOR\n2 1 30443 30406 30528 XOR\n2 1 30530 30534 30523 AND\n2 1 30523 30446 30449 XOR\n2 1 30531 30529 30522 AND\n2 1 30516 30522 30467 XOR\n2 1 30539 30524 30520 AND\n2 1 30520 30444 30448 XOR\n2 1 30533 30526 30518 AND\n2 1 30538 30527 30517 AND\n2 1 30517 30445 30447 XOR\n2 1 30449 30447 30453 XOR\n2 1 34013 30453 30458 XOR\n2 1 30467 30458 30514 XOR\n2 1 30516 30517 30419 XOR\n2 1 30419 30420 30466 XOR\n2 1 30466 30448 30465 XOR\n2 1 30519 30465 30513 XOR\n2 1 30537 30528 30515 AND\n2 1 30515 30518 30468 XOR\n2 1 30515 30521 30472 XOR\n2 1 30472 30444 30459 XOR\n2 1 30467 30459 30511 XOR\n2 1 30516 30468 30462 XOR\n2 1 30448 30468 30422 XOR\n2 1 30422 30447 30512 XOR\n2 1 30453 30472 30421 XOR\n2 1 34011 30421 30464 XOR\n2 1 30519 30462 30418 XOR\n2 1 34007 30418 30506 XOR\n2 1 30514 30513 30510 AND\n2 1 30510 30464 30505 XOR\n2 1 30510 30512 30509 XOR\n2 1 30511 30509 30508 AND\n2 1 30508 30464 30507 XOR\n2 1 30508 30520 30413 XOR\n2 1 30413 30449 30409 XOR\n2 1 34013 30409 30412 XOR\n2 1 30508 30458 30410 XOR\n2 1 34011 30409 30408 XOR\n2 1 30505 30506 30504 AND\n2 1 30504 30512 30503 XOR\n2 1 30510 30504 30502 XOR\n2 1 30504 30462 30417 XOR\n2 1 30504 30521 30416 XOR\n2 1 30416 30518 30411 XOR\n2 1 30411 30412 30495 XOR\n2 1 30512 30502 30501 AND\n2 1 30501 30509 30499 XOR\n2 1 30501 30519 30471 XOR\n2 1 30471 30465 30493 XOR\n2 1 34007 30471 30454 XOR\n2 1 30454 30417 30500 XOR\n2 1 30507 30499 30498 AND\n2 1 30498 30467 30457 XOR\n2 1 30457 30459 30497 XOR\n2 1 30498 30522 30415 XOR\n2 1 30454 30415 30407 XOR\n2 1 30444 30407 30414 XOR\n2 1 30411 30414 30496 XOR\n2 1 30457 30410 30494 XOR\n2 1 30407 30408 30492 XOR\n2 1 30493 30530 30491 AND\n2 1 30500 30529 30490 AND\n2 1 30503 34006 30489 AND\n2 1 30489 30491 30470 XOR\n2 1 30494 30524 30488 AND\n2 1 30497 30536 30487 AND\n2 1 30487 30488 30473 XOR\n2 1 30507 30526 30486 AND\n2 1 30486 30487 30424 XOR\n2 1 30495 30527 30485 AND\n2 1 30492 30525 30484 AND\n2 1 30484 30473 30463 XOR\n2 1 30484 30487 30439 XOR\n1 1 30439 30436 INV\n2 1 30484 30485 30435 XOR\n2 1 30485 30463 30423 XOR\n2 1 30496 30528 30483 AND\n2 1 30493 30534 30482 AND\n2 1 30500 30531 30481 AND\n2 1 30503 30535 30480 AND\n2 1 30480 30463 30429 XOR\n1 1 30429 30426 INV\n2 1 30494 30539 30479 AND\n2 1 30479 30483 30455 XOR\n2 1 30488 30479 30440 XOR\n1 1 30455 30433 INV\n2 1 30497 30532 30478 AND\n2 1 30486 30478 30442 XOR\n2 1 30507 30533 30477 AND\n",
"2 1 30433 30477 30432 XOR\n2 1 30432 30470 30428 XOR\n2 1 30495 30538 30476 AND\n2 1 30476 30428 30431 XOR\n2 1 30492 30540 30475 AND\n2 1 30475 30476 30469 XOR\n2 1 30481 30469 30451 XOR\n2 1 30482 30451 30452 XOR\n2 1 30490 30452 30456 XOR\n2 1 30491 30456 30461 XOR\n2 1 30473 30461 35808 XOR\n2 1 35808 35812 8952 XOR\n2 1 30442 30469 30438 XOR\n2 1 30470 30438 30441 XOR\n2 1 30440 30441 30544 XOR\n2 1 30433 30438 30437 XOR\n2 1 30436 30437 30543 XOR\n2 1 32809 30543 8821 XOR\n2 1 30461 30435 30542 XOR\n2 1 30451 30428 30427 XOR\n2 1 30426 30427 35806 XOR\n1 1 35806 8694 INV\n2 1 30489 30456 30425 XOR\n2 1 30424 30425 35807 XOR\n2 1 35807 8694 8693 XOR\n2 1 35807 35811 8955 XOR\n2 1 30452 30423 35809 XOR\n2 1 35809 35814 8900 XOR\n1 1 8900 8695 INV\n2 1 8695 35808 8818 XOR\n2 1 8695 35810 8692 XOR\n2 1 8692 8693 8968 XOR\n2 1 8900 32810 8690 XOR\n2 1 30496 30537 30474 AND\n2 1 30485 30474 30434 XOR\n1 1 30434 30430 INV\n2 1 30430 30431 30541 XOR\n1 1 30543 35805 INV\n2 1 33994 33996 30586 XOR\n2 1 33994 33997 30678 XOR\n2 1 30678 30600 30674 XOR\n2 1 30583 30678 30670 XOR\n2 1 33990 30670 30669 XOR\n2 1 33992 33994 30680 XOR\n2 1 30584 30680 30665 XOR\n2 1 30586 30584 30546 XOR\n2 1 30583 30546 30668 XOR\n2 1 30586 33995 30545 XOR\n2 1 33990 30545 30675 XOR\n2 1 30670 30674 30663 AND\n2 1 30663 30586 30589 XOR\n2 1 30671 30669 30662 AND\n2 1 30675 33990 30661 AND\n2 1 30678 30667 30657 AND\n2 1 30657 30585 30587 XOR\n2 1 30589 30587 30593 XOR\n2 1 33997 30593 30598 XOR\n2 1 30680 30665 30656 AND\n2 1 30656 30662 30607 XOR\n2 1 30607 30598 30654 XOR\n2 1 30656 30657 30559 XOR\n2 1 30559 30560 30606 XOR\n2 1 30606 30588 30605 XOR\n2 1 30659 30605 30653 XOR\n2 1 30677 30668 30655 AND\n2 1 30655 30658 30608 XOR\n2 1 30655 30661 30612 XOR\n2 1 30612 30584 30599 XOR\n2 1 30607 30599 30651 XOR\n2 1 30656 30608 30602 XOR\n2 1 30588 30608 30562 XOR\n2 1 30562 30587 30652 XOR\n2 1 30593 30612 30561 XOR\n2 1 33995 30561 30604 XOR\n2 1 30659 30602 30558 XOR\n2 1 33991 30558 30646 XOR\n2 1 30654 30653 30650 AND\n2 1 30650 30604 30645 XOR\n2 1 30650 30652 30649 XOR\n2 1 30651 30649 30648 AND\n2 1 30648 30604 30647 XOR\n2 1 30648 30660 30553 XOR\n2 1 30553 30589 30549 XOR\n2 1 33997 30549 30552 XOR\n2 1 30648 30598 30550 XOR\n2 1 33995 30549 30548 XOR\n2 1 30645 30646 30644 AND\n2 1 30644 30652 30643 XOR\n2 1 30650 30644 30642 XOR\n2 1 30644 30602 30557 XOR\n2 1 30644 30661 30556 XOR\n2 1 30556 30658 30551 XOR\n2 1 30551 30552 30635 XOR\n2 1 30652 30642 30641 AND\n2 1 30641 30649 30639 XOR\n2 1 30641 30659 30611 XOR\n2 1 30611 30605 30633 XOR\n2 1 33991 30611 30594 XOR\n2 1 30594 30557 30640 XOR\n2 1 30647 30639 30638 AND\n2 1 30638 30607 30597 XOR\n2 1 30597 30599 30637 XOR\n2 1 30638 30662 30555 XOR\n2 1 30594 30555 30547 XOR\n2 1 30584 30547 30554 XOR\n2 1 30551 30554 30636 XOR\n2 1 30597 30550 30634 XOR\n2 1 30547 30548 30632 XOR\n2 1 30633 30670 30631 AND\n2 1 30640 30669 30630 AND\n2 1 30643 33990 30629 AND\n2 1 30629 30631 30610 XOR\n2 1 30634 30664 30628 AND\n2 1 30637 30676 30627 AND\n2 1 30627 30628 30613 XOR\n2 1 30647 30666 30626 AND\n2 1 30626 30627 30564 XOR\n2 1 30635 30667 30625 AND\n2 1 30632 30665 30624 AND\n2 1 30624 30613 30603 XOR\n2 1 30624 30627 30579 XOR\n1 1 30579 30576 INV\n2 1 30624 30625 30575 XOR\n2 1 30625 30603 30563 XOR\n2 1 30636 30668 30623 AND\n2 1 30633 30674 30622 AND\n2 1 30640 30671 30621 AND\n2 1 30643 30675 30620 AND\n",
"2 1 30620 30603 30569 XOR\n1 1 30569 30566 INV\n2 1 30634 30679 30619 AND\n2 1 30619 30623 30595 XOR\n2 1 30628 30619 30580 XOR\n1 1 30595 30573 INV\n2 1 30637 30672 30618 AND\n2 1 30626 30618 30582 XOR\n2 1 30647 30673 30617 AND\n2 1 30573 30617 30572 XOR\n2 1 30572 30610 30568 XOR\n2 1 30635 30678 30616 AND\n2 1 30616 30568 30571 XOR\n2 1 30632 30680 30615 AND\n2 1 30615 30616 30609 XOR\n2 1 30621 30609 30591 XOR\n2 1 30622 30591 30592 XOR\n2 1 30630 30592 30596 XOR\n2 1 30631 30596 30601 XOR\n2 1 30613 30601 35834 XOR\n2 1 30582 30609 30578 XOR\n2 1 30610 30578 30581 XOR\n2 1 30580 30581 30684 XOR\n2 1 30573 30578 30577 XOR\n2 1 30576 30577 30683 XOR\n2 1 30601 30575 30682 XOR\n2 1 30591 30568 30567 XOR\n2 1 30566 30567 35832 XOR\n2 1 30629 30596 30565 XOR\n2 1 30564 30565 35833 XOR\n2 1 30592 30563 35835 XOR\n2 1 30636 30677 30614 AND\n2 1 30625 30614 30574 XOR\n1 1 30574 30570 INV\n2 1 30570 30571 30681 XOR\n2 1 34015 34017 31423 XOR\n2 1 34016 31423 31425 XOR\n2 1 34020 31425 31507 XOR\n2 1 34019 31425 31504 XOR\n2 1 31430 31425 31506 XOR\n2 1 31423 31518 31510 XOR\n2 1 34014 31510 31509 XOR\n2 1 34017 34016 31400 XOR\n2 1 31423 31386 31508 XOR\n2 1 31510 31514 31503 AND\n2 1 31503 31426 31429 XOR\n2 1 31511 31509 31502 AND\n2 1 31496 31502 31447 XOR\n2 1 31519 31504 31500 AND\n2 1 31500 31424 31428 XOR\n2 1 31513 31506 31498 AND\n2 1 31518 31507 31497 AND\n2 1 31497 31425 31427 XOR\n2 1 31429 31427 31433 XOR\n2 1 34021 31433 31438 XOR\n2 1 31447 31438 31494 XOR\n2 1 31496 31497 31399 XOR\n2 1 31399 31400 31446 XOR\n2 1 31446 31428 31445 XOR\n2 1 31499 31445 31493 XOR\n2 1 31517 31508 31495 AND\n2 1 31495 31498 31448 XOR\n2 1 31495 31501 31452 XOR\n2 1 31452 31424 31439 XOR\n2 1 31447 31439 31491 XOR\n2 1 31496 31448 31442 XOR\n2 1 31428 31448 31402 XOR\n2 1 31402 31427 31492 XOR\n2 1 31433 31452 31401 XOR\n2 1 34019 31401 31444 XOR\n2 1 31499 31442 31398 XOR\n2 1 34015 31398 31486 XOR\n2 1 31494 31493 31490 AND\n2 1 31490 31444 31485 XOR\n2 1 31490 31492 31489 XOR\n2 1 31491 31489 31488 AND\n2 1 31488 31444 31487 XOR\n2 1 31488 31500 31393 XOR\n2 1 31393 31429 31389 XOR\n2 1 34021 31389 31392 XOR\n2 1 31488 31438 31390 XOR\n2 1 34019 31389 31388 XOR\n2 1 31485 31486 31484 AND\n2 1 31484 31492 31483 XOR\n2 1 31490 31484 31482 XOR\n2 1 31484 31442 31397 XOR\n2 1 31484 31501 31396 XOR\n2 1 31396 31498 31391 XOR\n2 1 31391 31392 31475 XOR\n2 1 31492 31482 31481 AND\n2 1 31481 31489 31479 XOR\n2 1 31481 31499 31451 XOR\n2 1 31451 31445 31473 XOR\n2 1 34015 31451 31434 XOR\n2 1 31434 31397 31480 XOR\n2 1 31487 31479 31478 AND\n2 1 31478 31447 31437 XOR\n2 1 31437 31439 31477 XOR\n2 1 31478 31502 31395 XOR\n2 1 31434 31395 31387 XOR\n2 1 31424 31387 31394 XOR\n2 1 31391 31394 31476 XOR\n2 1 31437 31390 31474 XOR\n2 1 31387 31388 31472 XOR\n2 1 31473 31510 31471 AND\n2 1 31480 31509 31470 AND\n2 1 31483 34014 31469 AND\n2 1 31469 31471 31450 XOR\n2 1 31474 31504 31468 AND\n2 1 31477 31516 31467 AND\n2 1 31467 31468 31453 XOR\n2 1 31487 31506 31466 AND\n2 1 31466 31467 31404 XOR\n2 1 31475 31507 31465 AND\n2 1 31472 31505 31464 AND\n2 1 31464 31453 31443 XOR\n2 1 31464 31467 31419 XOR\n1 1 31419 31416 INV\n2 1 31464 31465 31415 XOR\n2 1 31465 31443 31403 XOR\n2 1 31476 31508 31463 AND\n2 1 31473 31514 31462 AND\n2 1 31480 31511 31461 AND\n2 1 31483 31515 31460 AND\n2 1 31460 31443 31409 XOR\n1 1 31409 31406 INV\n2 1 31474 31519 31459 AND\n2 1 31459 31463 31435 XOR\n",
"2 1 31468 31459 31420 XOR\n1 1 31435 31413 INV\n2 1 31477 31512 31458 AND\n2 1 31466 31458 31422 XOR\n2 1 31487 31513 31457 AND\n2 1 31413 31457 31412 XOR\n2 1 31412 31450 31408 XOR\n2 1 31475 31518 31456 AND\n2 1 31456 31408 31411 XOR\n2 1 31472 31520 31455 AND\n2 1 31455 31456 31449 XOR\n2 1 31461 31449 31431 XOR\n2 1 31462 31431 31432 XOR\n2 1 31470 31432 31436 XOR\n2 1 31471 31436 31441 XOR\n2 1 31453 31441 35866 XOR\n2 1 35866 8698 8889 XOR\n2 1 31422 31449 31418 XOR\n2 1 31450 31418 31421 XOR\n2 1 31420 31421 31524 XOR\n2 1 31413 31418 31417 XOR\n2 1 31416 31417 31523 XOR\n2 1 31441 31415 31522 XOR\n2 1 31431 31408 31407 XOR\n2 1 31406 31407 35864 XOR\n2 1 31469 31436 31405 XOR\n2 1 31404 31405 35865 XOR\n2 1 35852 35865 8920 XOR\n2 1 31432 31403 35867 XOR\n2 1 35855 35867 8906 XOR\n2 1 8906 35851 8658 XOR\n2 1 31476 31517 31454 AND\n2 1 31465 31454 31414 XOR\n1 1 31414 31410 INV\n2 1 31410 31411 31521 XOR\n2 1 35865 35864 8659 XOR\n2 1 8658 8659 8982 XOR\n1 1 30544 33177 INV\n1 1 30683 33181 INV\n1 1 30684 33182 INV\n1 1 30541 33183 INV\n2 1 33183 32813 8948 XOR\n1 1 30542 33184 INV\n2 1 33184 35813 8945 XOR\n1 1 30681 33187 INV\n1 1 30682 33188 INV\n1 1 31523 33205 INV\n1 1 31524 33206 INV\n1 1 31521 33211 INV\n2 1 32812 33211 8929 XOR\n1 1 31522 33212 INV\n2 1 8906 32808 8656 XOR\n1 1 7080 33242 INV\n2 1 33242 32882 6901 XOR\n2 1 6900 6901 35354 XOR\n2 1 35354 806 33855 XOR\n2 1 33242 35442 6896 XOR\n2 1 6895 6896 35356 XOR\n2 1 35356 804 33857 XOR\n2 1 33242 35443 6893 XOR\n2 1 6892 6893 35357 XOR\n2 1 35357 803 33858 XOR\n2 1 33855 33857 27223 XOR\n2 1 33856 27223 27225 XOR\n2 1 33860 27225 27307 XOR\n2 1 33859 27225 27304 XOR\n2 1 27230 27225 27306 XOR\n2 1 33858 33860 27226 XOR\n2 1 33855 27316 27312 XOR\n2 1 33858 33861 27318 XOR\n2 1 27223 27318 27310 XOR\n2 1 33854 27310 27309 XOR\n2 1 33855 33856 27240 XOR\n2 1 27240 27313 27311 XOR\n2 1 27318 27240 27314 XOR\n2 1 33856 33858 27320 XOR\n2 1 27224 27320 27305 XOR\n2 1 33857 33856 27200 XOR\n2 1 27226 27224 27186 XOR\n2 1 27223 27186 27308 XOR\n2 1 27226 33859 27185 XOR\n2 1 33854 27185 27315 XOR\n2 1 33861 33855 27319 XOR\n2 1 27310 27314 27303 AND\n2 1 27303 27226 27229 XOR\n2 1 27311 27309 27302 AND\n2 1 27315 33854 27301 AND\n2 1 27319 27304 27300 AND\n2 1 27300 27224 27228 XOR\n2 1 27316 27312 27299 AND\n2 1 27313 27306 27298 AND\n2 1 27318 27307 27297 AND\n2 1 27297 27225 27227 XOR\n2 1 27229 27227 27233 XOR\n2 1 33861 27233 27238 XOR\n2 1 27320 27305 27296 AND\n2 1 27296 27302 27247 XOR\n2 1 27247 27238 27294 XOR\n2 1 27296 27297 27199 XOR\n2 1 27199 27200 27246 XOR\n2 1 27246 27228 27245 XOR\n2 1 27299 27245 27293 XOR\n2 1 27317 27308 27295 AND\n2 1 27295 27298 27248 XOR\n2 1 27295 27301 27252 XOR\n2 1 27252 27224 27239 XOR\n2 1 27247 27239 27291 XOR\n2 1 27296 27248 27242 XOR\n2 1 27228 27248 27202 XOR\n2 1 27202 27227 27292 XOR\n2 1 27233 27252 27201 XOR\n2 1 33859 27201 27244 XOR\n2 1 27299 27242 27198 XOR\n2 1 33855 27198 27286 XOR\n2 1 27294 27293 27290 AND\n2 1 27290 27244 27285 XOR\n2 1 27290 27292 27289 XOR\n2 1 27291 27289 27288 AND\n2 1 27288 27244 27287 XOR\n2 1 27288 27300 27193 XOR\n2 1 27193 27229 27189 XOR\n2 1 33861 27189 27192 XOR\n2 1 27288 27238 27190 XOR\n2 1 33859 27189 27188 XOR\n2 1 27285 27286 27284 AND\n2 1 27284 27292 27283 XOR\n2 1 27290 27284 27282 XOR\n2 1 27284 27242 27197 XOR\n",
"2 1 27284 27301 27196 XOR\n2 1 27196 27298 27191 XOR\n2 1 27191 27192 27275 XOR\n2 1 27292 27282 27281 AND\n2 1 27281 27289 27279 XOR\n2 1 27281 27299 27251 XOR\n2 1 27251 27245 27273 XOR\n2 1 33855 27251 27234 XOR\n2 1 27234 27197 27280 XOR\n2 1 27287 27279 27278 AND\n2 1 27278 27247 27237 XOR\n2 1 27237 27239 27277 XOR\n2 1 27278 27302 27195 XOR\n2 1 27234 27195 27187 XOR\n2 1 27224 27187 27194 XOR\n2 1 27191 27194 27276 XOR\n2 1 27237 27190 27274 XOR\n2 1 27187 27188 27272 XOR\n2 1 27273 27310 27271 AND\n2 1 27280 27309 27270 AND\n2 1 27283 33854 27269 AND\n2 1 27269 27271 27250 XOR\n2 1 27274 27304 27268 AND\n2 1 27277 27316 27267 AND\n2 1 27267 27268 27253 XOR\n2 1 27287 27306 27266 AND\n2 1 27266 27267 27204 XOR\n2 1 27275 27307 27265 AND\n2 1 27272 27305 27264 AND\n2 1 27264 27253 27243 XOR\n2 1 27264 27267 27219 XOR\n1 1 27219 27216 INV\n2 1 27264 27265 27215 XOR\n2 1 27265 27243 27203 XOR\n2 1 27276 27308 27263 AND\n2 1 27273 27314 27262 AND\n2 1 27280 27311 27261 AND\n2 1 27283 27315 27260 AND\n2 1 27260 27243 27209 XOR\n1 1 27209 27206 INV\n2 1 27274 27319 27259 AND\n2 1 27259 27263 27235 XOR\n2 1 27268 27259 27220 XOR\n1 1 27235 27213 INV\n2 1 27277 27312 27258 AND\n2 1 27266 27258 27222 XOR\n2 1 27287 27313 27257 AND\n2 1 27213 27257 27212 XOR\n2 1 27212 27250 27208 XOR\n2 1 27275 27318 27256 AND\n2 1 27256 27208 27211 XOR\n2 1 27272 27320 27255 AND\n2 1 27255 27256 27249 XOR\n2 1 27261 27249 27231 XOR\n2 1 27262 27231 27232 XOR\n2 1 27270 27232 27236 XOR\n2 1 27271 27236 27241 XOR\n2 1 27253 27241 35648 XOR\n2 1 35644 35648 8159 XOR\n2 1 27222 27249 27218 XOR\n2 1 27250 27218 27221 XOR\n2 1 27220 27221 27324 XOR\n2 1 27213 27218 27217 XOR\n2 1 27216 27217 27323 XOR\n2 1 27241 27215 27322 XOR\n2 1 27231 27208 27207 XOR\n2 1 27206 27207 35646 XOR\n2 1 35642 35646 8178 XOR\n2 1 27269 27236 27205 XOR\n2 1 27204 27205 35647 XOR\n2 1 35643 35647 8168 XOR\n2 1 27232 27203 35649 XOR\n2 1 35645 35649 8128 XOR\n2 1 35634 35649 8136 XOR\n1 1 8136 7903 INV\n2 1 27276 27317 27254 AND\n2 1 27265 27254 27214 XOR\n1 1 27214 27210 INV\n2 1 27210 27211 27321 XOR\n1 1 8178 7990 INV\n2 1 7903 35646 7904 XOR\n2 1 8136 35647 7907 XOR\n1 1 27323 33105 INV\n2 1 7990 33105 7988 XOR\n2 1 32865 33105 8182 XOR\n1 1 27324 33106 INV\n2 1 32866 33106 8190 XOR\n2 1 8190 8136 7991 XOR\n2 1 7903 33106 7901 XOR\n1 1 27321 33111 INV\n2 1 32871 33111 8153 XOR\n2 1 8153 35648 7987 XOR\n1 1 7987 7985 INV\n1 1 27322 33112 INV\n2 1 32872 33112 8142 XOR\n2 1 8128 33112 7977 XOR\n2 1 8142 33111 7980 XOR\n1 1 7085 33243 INV\n2 1 33243 35395 7030 XOR\n2 1 7029 7030 35277 XOR\n2 1 33243 32921 6872 XOR\n2 1 6872 6873 7155 XOR\n2 1 7155 7147 35274 XOR\n2 1 35274 886 33775 XOR\n2 1 33775 33777 22891 XOR\n2 1 33776 22891 22893 XOR\n2 1 33780 22893 22974 XOR\n2 1 33779 22893 22971 XOR\n2 1 22898 22893 22973 XOR\n2 1 33775 22983 22979 XOR\n2 1 33775 33776 22908 XOR\n2 1 22908 22980 22978 XOR\n2 1 33781 33775 22986 XOR\n2 1 22986 22971 22967 AND\n2 1 22967 22892 22896 XOR\n2 1 22983 22979 22966 AND\n2 1 22980 22973 22965 AND\n2 1 35277 883 33778 XOR\n2 1 33778 33780 22894 XOR\n2 1 33778 33781 22985 XOR\n2 1 22985 22908 22981 XOR\n2 1 22891 22985 22977 XOR\n2 1 33774 22977 22976 XOR\n2 1 33776 33778 22987 XOR\n2 1 22892 22987 22972 XOR\n2 1 22894 22892 22854 XOR\n2 1 22891 22854 22975 XOR\n2 1 22894 33779 22853 XOR\n",
"2 1 33774 22853 22982 XOR\n2 1 22977 22981 22970 AND\n2 1 22970 22894 22897 XOR\n2 1 22978 22976 22969 AND\n2 1 22982 33774 22968 AND\n2 1 22985 22974 22964 AND\n2 1 22964 22893 22895 XOR\n2 1 22897 22895 22901 XOR\n2 1 33781 22901 22906 XOR\n2 1 22987 22972 22963 AND\n2 1 22963 22969 22915 XOR\n2 1 22915 22906 22961 XOR\n2 1 22963 22964 22867 XOR\n2 1 22867 22868 22914 XOR\n2 1 22914 22896 22913 XOR\n2 1 22966 22913 22960 XOR\n2 1 22984 22975 22962 AND\n2 1 22962 22965 22916 XOR\n2 1 22962 22968 22920 XOR\n2 1 22920 22892 22907 XOR\n2 1 22915 22907 22958 XOR\n2 1 22963 22916 22910 XOR\n2 1 22896 22916 22870 XOR\n2 1 22870 22895 22959 XOR\n2 1 22901 22920 22869 XOR\n2 1 33779 22869 22912 XOR\n2 1 22966 22910 22866 XOR\n2 1 33775 22866 22953 XOR\n2 1 22961 22960 22957 AND\n2 1 22957 22912 22952 XOR\n2 1 22957 22959 22956 XOR\n2 1 22958 22956 22955 AND\n2 1 22955 22912 22954 XOR\n2 1 22955 22967 22861 XOR\n2 1 22861 22897 22857 XOR\n2 1 33781 22857 22860 XOR\n2 1 22955 22906 22858 XOR\n2 1 33779 22857 22856 XOR\n2 1 22952 22953 22951 AND\n2 1 22951 22959 22950 XOR\n2 1 22957 22951 22949 XOR\n2 1 22951 22910 22865 XOR\n2 1 22951 22968 22864 XOR\n2 1 22864 22965 22859 XOR\n2 1 22859 22860 22942 XOR\n2 1 22959 22949 22948 AND\n2 1 22948 22956 22946 XOR\n2 1 22948 22966 22919 XOR\n2 1 22919 22913 22940 XOR\n2 1 33775 22919 22902 XOR\n2 1 22902 22865 22947 XOR\n2 1 22954 22946 22945 AND\n2 1 22945 22915 22905 XOR\n2 1 22905 22907 22944 XOR\n2 1 22945 22969 22863 XOR\n2 1 22902 22863 22855 XOR\n2 1 22892 22855 22862 XOR\n2 1 22859 22862 22943 XOR\n2 1 22905 22858 22941 XOR\n2 1 22855 22856 22939 XOR\n2 1 22940 22977 22938 AND\n2 1 22947 22976 22937 AND\n2 1 22950 33774 22936 AND\n2 1 22936 22938 22918 XOR\n2 1 22941 22971 22935 AND\n2 1 22944 22983 22934 AND\n2 1 22954 22973 22933 AND\n2 1 22933 22934 22872 XOR\n2 1 22942 22974 22932 AND\n2 1 22939 22972 22931 AND\n2 1 22931 22934 22887 XOR\n1 1 22887 22884 INV\n2 1 22931 22932 22883 XOR\n2 1 22943 22975 22930 AND\n2 1 22940 22981 22929 AND\n2 1 22947 22978 22928 AND\n2 1 22950 22982 22927 AND\n2 1 22941 22986 22926 AND\n2 1 22926 22930 22903 XOR\n2 1 22935 22926 22888 XOR\n1 1 22903 22881 INV\n2 1 22944 22979 22925 AND\n2 1 22933 22925 22890 XOR\n2 1 22954 22980 22924 AND\n2 1 22881 22924 22880 XOR\n2 1 22880 22918 22876 XOR\n2 1 22942 22985 22923 AND\n2 1 22923 22876 22879 XOR\n2 1 22939 22987 22922 AND\n2 1 22922 22923 22917 XOR\n2 1 22928 22917 22899 XOR\n2 1 22929 22899 22900 XOR\n2 1 22937 22900 22904 XOR\n2 1 22938 22904 22909 XOR\n2 1 22890 22917 22886 XOR\n2 1 22918 22886 22889 XOR\n2 1 22888 22889 22991 XOR\n2 1 22881 22886 22885 XOR\n2 1 22884 22885 22990 XOR\n2 1 22909 22883 22989 XOR\n2 1 32872 22989 7953 XOR\n2 1 22989 32806 7981 XOR\n2 1 7980 7981 7979 XOR\n1 1 7979 35536 INV\n2 1 35536 697 33964 XOR\n2 1 22899 22876 22875 XOR\n2 1 22936 22904 22873 XOR\n2 1 22872 22873 35637 XOR\n2 1 35632 35637 8179 XOR\n1 1 35637 7906 INV\n2 1 35643 7906 7916 XOR\n2 1 22943 22984 22921 AND\n2 1 22932 22921 22882 XOR\n1 1 22882 22878 INV\n2 1 22878 22879 22988 XOR\n1 1 22990 35635 INV\n2 1 32800 35635 8193 XOR\n2 1 8193 8190 7950 XOR\n1 1 22989 35640 INV\n1 1 22988 35639 INV\n2 1 32806 35639 8164 XOR\n2 1 22988 35633 7986 XOR\n2 1 8193 8178 7972 XOR\n2 1 35631 7972 35540 XOR\n2 1 32799 35640 8157 XOR\n2 1 8157 8128 7965 XOR\n2 1 7985 7986 35535 XOR\n2 1 7906 35631 7905 XOR\n",
"2 1 7904 7905 8209 XOR\n2 1 8209 8168 35533 XOR\n2 1 22990 32801 7902 XOR\n2 1 7901 7902 8210 XOR\n2 1 8210 8182 35531 XOR\n2 1 35531 702 33959 XOR\n2 1 35533 700 33961 XOR\n2 1 33959 33961 24146 XOR\n2 1 35540 693 33968 XOR\n2 1 8164 8142 7966 XOR\n2 1 8157 33112 7956 XOR\n1 1 7956 7954 INV\n2 1 33243 35412 7009 XOR\n2 1 35535 698 33963 XOR\n2 1 7009 7010 35288 XOR\n2 1 22934 22935 32718 XOR\n2 1 22931 32718 22911 XOR\n2 1 22932 22911 22871 XOR\n2 1 22900 22871 35641 XOR\n2 1 35641 35645 8135 XOR\n2 1 8135 33105 7909 XOR\n2 1 35634 35641 8131 XOR\n2 1 8190 8131 7976 XOR\n2 1 32801 7976 35538 XOR\n2 1 35538 695 33966 XOR\n2 1 22927 22911 22877 XOR\n1 1 8135 7914 INV\n2 1 7914 35648 7915 XOR\n2 1 7915 7916 8205 XOR\n2 1 7914 35647 7911 XOR\n2 1 35641 32799 7978 XOR\n2 1 7977 7978 35537 XOR\n2 1 35537 696 33965 XOR\n2 1 33963 33965 24147 XOR\n2 1 33965 33959 24242 XOR\n1 1 22877 22874 INV\n2 1 22874 22875 35636 XOR\n1 1 35636 7913 INV\n2 1 7913 32800 7989 XOR\n2 1 35642 7913 7912 XOR\n2 1 7911 7912 8206 XOR\n2 1 8206 8179 35549 XOR\n2 1 35549 684 33977 XOR\n2 1 35631 35636 8186 XOR\n1 1 8186 7961 INV\n2 1 7961 8168 7970 XOR\n2 1 7961 35646 7959 XOR\n2 1 7988 7989 35532 XOR\n2 1 35532 701 33960 XOR\n2 1 33965 33960 24240 XOR\n2 1 33961 33960 24123 XOR\n2 1 33960 24146 24148 XOR\n2 1 33963 24148 24227 XOR\n2 1 24242 24227 24223 AND\n2 1 24223 24147 24151 XOR\n2 1 33964 24148 24230 XOR\n2 1 33959 33960 24163 XOR\n2 1 32718 22909 35638 XOR\n2 1 35633 35638 8171 XOR\n2 1 8205 8171 35550 XOR\n2 1 8171 8153 7967 XOR\n2 1 32806 7967 35543 XOR\n2 1 35543 690 33971 XOR\n2 1 35550 683 33978 XOR\n2 1 35638 35632 7908 XOR\n2 1 7907 7908 8208 XOR\n2 1 8208 8159 35534 XOR\n2 1 35534 699 33962 XOR\n2 1 33962 33964 24149 XOR\n2 1 33962 33965 24241 XOR\n2 1 24241 24163 24237 XOR\n2 1 24146 24241 24233 XOR\n2 1 33960 33962 24243 XOR\n2 1 24147 24243 24228 XOR\n2 1 24149 24147 24109 XOR\n2 1 24146 24109 24231 XOR\n2 1 24149 33963 24108 XOR\n2 1 24233 24237 24226 AND\n2 1 24226 24149 24152 XOR\n2 1 24241 24230 24220 AND\n2 1 24220 24148 24150 XOR\n2 1 24152 24150 24156 XOR\n2 1 33965 24156 24161 XOR\n2 1 24243 24228 24219 AND\n2 1 24219 24220 24122 XOR\n2 1 24122 24123 24169 XOR\n2 1 24169 24151 24168 XOR\n2 1 24240 24231 24218 AND\n2 1 35644 35638 7958 XOR\n1 1 8179 7945 INV\n2 1 7945 8159 7968 XOR\n2 1 32799 7966 35544 XOR\n2 1 35544 689 33972 XOR\n2 1 33966 33972 28770 XOR\n2 1 33971 28770 28856 XOR\n2 1 35634 7965 35545 XOR\n2 1 35545 688 33973 XOR\n2 1 33971 33973 28764 XOR\n2 1 28764 28770 28853 XOR\n2 1 33973 33968 28857 XOR\n2 1 32865 22990 7960 XOR\n2 1 7959 7960 35548 XOR\n2 1 35548 685 33976 XOR\n2 1 33976 33978 30820 XOR\n2 1 33977 33976 30700 XOR\n2 1 32871 22988 7955 XOR\n2 1 7954 7955 35552 XOR\n1 1 7950 7948 INV\n2 1 8186 8182 7946 XOR\n2 1 35642 7946 35556 XOR\n2 1 35556 677 33984 XOR\n2 1 7945 8178 7943 XOR\n2 1 8164 8159 7939 XOR\n2 1 32871 7939 35559 XOR\n2 1 35559 674 33987 XOR\n2 1 8157 8153 7938 XOR\n2 1 32872 7938 35560 XOR\n2 1 35560 673 33988 XOR\n2 1 8142 8131 7937 XOR\n2 1 35645 7937 35561 XOR\n2 1 35561 672 33989 XOR\n2 1 33987 33989 31564 XOR\n2 1 33989 33984 31657 XOR\n2 1 35288 872 33789 XOR\n2 1 33789 33783 13950 XOR\n2 1 33787 33789 13855 XOR\n2 1 13857 13855 13817 XOR\n2 1 13854 13817 13939 XOR\n",
"2 1 13855 13861 13944 XOR\n2 1 13944 13937 13929 AND\n2 1 13872 13944 13942 XOR\n2 1 33786 33789 13949 XOR\n2 1 13949 13938 13928 AND\n2 1 13928 13856 13858 XOR\n2 1 13854 13949 13941 XOR\n2 1 33782 13941 13940 XOR\n2 1 13855 13951 13936 XOR\n2 1 13951 13936 13927 AND\n2 1 13927 13928 13830 XOR\n2 1 13830 13831 13878 XOR\n2 1 13942 13940 13933 AND\n2 1 13950 13935 13931 AND\n2 1 13931 13855 13859 XOR\n2 1 13878 13859 13877 XOR\n2 1 13949 13872 13945 XOR\n2 1 13941 13945 13934 AND\n2 1 13934 13857 13860 XOR\n2 1 13860 13858 13864 XOR\n2 1 33789 13864 13870 XOR\n2 1 33789 33784 13948 XOR\n2 1 13948 13939 13926 AND\n2 1 13930 13877 13924 XOR\n2 1 13927 13933 13879 XOR\n2 1 13879 13870 13925 XOR\n2 1 13925 13924 13921 AND\n2 1 13926 13929 13880 XOR\n2 1 13859 13880 13833 XOR\n2 1 13833 13858 13923 XOR\n2 1 13921 13923 13920 XOR\n2 1 13927 13880 13874 XOR\n2 1 13930 13874 13829 XOR\n2 1 33783 13829 13917 XOR\n2 1 13926 13932 13884 XOR\n2 1 13884 13855 13871 XOR\n2 1 13879 13871 13922 XOR\n2 1 13922 13920 13919 AND\n2 1 13919 13870 13821 XOR\n2 1 13919 13931 13824 XOR\n2 1 13824 13860 13820 XOR\n2 1 33787 13820 13819 XOR\n2 1 33789 13820 13823 XOR\n2 1 13864 13884 13832 XOR\n2 1 33787 13832 13876 XOR\n2 1 13919 13876 13918 XOR\n2 1 13921 13876 13916 XOR\n2 1 13916 13917 13915 AND\n2 1 13915 13874 13828 XOR\n2 1 13921 13915 13913 XOR\n2 1 13923 13913 13912 AND\n2 1 13912 13920 13910 XOR\n2 1 13918 13910 13909 AND\n2 1 13909 13879 13869 XOR\n2 1 13869 13821 13905 XOR\n2 1 13869 13871 13908 XOR\n2 1 13909 13933 13826 XOR\n2 1 13905 13935 13899 AND\n2 1 13908 13947 13898 AND\n2 1 13898 13899 13867 XOR\n2 1 13918 13937 13897 AND\n2 1 13897 13898 13835 XOR\n2 1 13915 13932 13827 XOR\n2 1 13915 13923 13914 XOR\n2 1 13914 33782 13900 AND\n2 1 13914 13946 13891 AND\n2 1 13905 13950 13890 AND\n2 1 13899 13890 13851 XOR\n2 1 13827 13929 13822 XOR\n2 1 13918 13944 13888 AND\n2 1 13908 13943 13889 AND\n2 1 13897 13889 13853 XOR\n2 1 13822 13823 13906 XOR\n2 1 13906 13938 13896 AND\n2 1 13906 13949 13887 AND\n2 1 13912 13930 13883 XOR\n2 1 33783 13883 13865 XOR\n2 1 13865 13828 13911 XOR\n2 1 13865 13826 13818 XOR\n2 1 13818 13819 13903 XOR\n2 1 13903 13936 13895 AND\n2 1 13895 13867 13875 XOR\n2 1 13891 13875 13840 XOR\n2 1 13895 13898 13850 XOR\n1 1 13850 13847 INV\n2 1 13903 13951 13886 AND\n1 1 13840 13837 INV\n2 1 13911 13940 13901 AND\n2 1 13911 13942 13892 AND\n2 1 13895 13896 13846 XOR\n2 1 13896 13875 13834 XOR\n2 1 13855 13818 13825 XOR\n2 1 13886 13887 13881 XOR\n2 1 13853 13881 13849 XOR\n2 1 13892 13881 13862 XOR\n2 1 13822 13825 13907 XOR\n2 1 13907 13948 13885 AND\n2 1 13896 13885 13845 XOR\n1 1 13845 13841 INV\n2 1 13907 13939 13894 AND\n2 1 13890 13894 13866 XOR\n1 1 13866 13844 INV\n2 1 13844 13849 13848 XOR\n2 1 13847 13848 13954 XOR\n2 1 13844 13888 13843 XOR\n2 1 13883 13877 13904 XOR\n2 1 13904 13941 13902 AND\n2 1 13904 13945 13893 AND\n2 1 13893 13862 13863 XOR\n2 1 13863 13834 35626 XOR\n2 1 13901 13863 13868 XOR\n2 1 13900 13868 13836 XOR\n2 1 13835 13836 35624 XOR\n2 1 13902 13868 13873 XOR\n2 1 13873 13846 13953 XOR\n2 1 35624 7887 7899 XOR\n2 1 35626 35630 8129 XOR\n2 1 8148 8129 8037 XOR\n2 1 35622 8037 35505 XOR\n2 1 8129 32804 8019 XOR\n2 1 35624 35628 8155 XOR\n2 1 8217 8155 35501 XOR\n2 1 8019 8020 35513 XOR\n2 1 35513 720 33941 XOR\n2 1 8017 8155 8026 XOR\n2 1 8170 8129 8008 XOR\n2 1 35501 732 33929 XOR\n2 1 7999 8155 7996 XOR\n",
"2 1 13867 13873 35625 XOR\n2 1 35625 35629 8150 XOR\n2 1 8216 8150 35502 XOR\n2 1 35502 731 33930 XOR\n2 1 8025 8150 8023 XOR\n1 1 35625 7998 INV\n2 1 8129 7998 7997 XOR\n2 1 7998 35621 8013 XOR\n2 1 8012 8013 35519 XOR\n2 1 35519 714 33947 XOR\n2 1 35505 728 33933 XOR\n2 1 33930 33933 31098 XOR\n2 1 13900 13902 13882 XOR\n2 1 13843 13882 13839 XOR\n2 1 13887 13839 13842 XOR\n2 1 13841 13842 13952 XOR\n2 1 13862 13839 13838 XOR\n2 1 13837 13838 35623 XOR\n2 1 35623 35619 7897 XOR\n2 1 35623 35627 8160 XOR\n2 1 8162 8160 8003 XOR\n2 1 8169 8160 8028 XOR\n2 1 35614 8028 35508 XOR\n2 1 35508 725 33936 XOR\n2 1 33941 33936 28997 XOR\n2 1 8160 32932 8042 XOR\n2 1 8042 8043 35500 XOR\n2 1 35500 733 33928 XOR\n2 1 33929 33928 30980 XOR\n2 1 33933 33928 31097 XOR\n2 1 33928 33930 31100 XOR\n2 1 13882 13849 13852 XOR\n2 1 13851 13852 13955 XOR\n2 1 7996 7997 35526 XOR\n2 1 35526 707 33954 XOR\n2 1 8154 8150 7995 XOR\n2 1 35622 35626 8137 XOR\n2 1 8170 8137 8018 XOR\n2 1 8137 32932 7894 XOR\n2 1 8137 35628 7896 XOR\n2 1 7896 7897 8212 XOR\n2 1 8212 8162 35517 XOR\n2 1 35517 716 33945 XOR\n2 1 32925 8018 35514 XOR\n2 1 35514 719 33942 XOR\n1 1 8137 7900 INV\n2 1 7900 35629 7898 XOR\n2 1 7898 7899 8211 XOR\n2 1 8211 8158 35518 XOR\n2 1 35518 715 33946 XOR\n2 1 8129 35624 8004 XOR\n2 1 8003 8004 35525 XOR\n2 1 35525 708 33953 XOR\n2 1 8164 33111 7957 XOR\n2 1 7957 7958 35551 XOR\n2 1 35551 682 33979 XOR\n1 1 13954 32869 INV\n2 1 8129 32869 8007 XOR\n2 1 32869 32932 8163 XOR\n2 1 8218 8163 35499 XOR\n2 1 35499 734 33927 XOR\n2 1 8170 8163 8030 XOR\n2 1 8165 8163 8005 XOR\n2 1 32869 7874 8016 XOR\n2 1 8015 8016 35516 XOR\n2 1 35516 717 33944 XOR\n2 1 35623 8005 35524 XOR\n2 1 35524 709 33952 XOR\n2 1 33944 33946 30960 XOR\n2 1 33945 33944 30840 XOR\n2 1 33927 33929 31003 XOR\n2 1 33928 31003 31005 XOR\n2 1 31003 31098 31090 XOR\n2 1 33927 33928 31020 XOR\n2 1 31098 31020 31094 XOR\n2 1 33933 33927 31099 XOR\n2 1 31090 31094 31083 AND\n2 1 33952 33954 31800 XOR\n2 1 33953 33952 31680 XOR\n1 1 13955 32870 INV\n2 1 32870 8008 35522 XOR\n2 1 35522 711 33950 XOR\n2 1 32870 32925 8167 XOR\n2 1 8167 8130 8032 XOR\n2 1 32862 8032 35506 XOR\n2 1 8167 8139 8044 XOR\n2 1 32805 8044 35498 XOR\n2 1 35506 727 33934 XOR\n2 1 8169 8167 8006 XOR\n2 1 8006 8007 35523 XOR\n2 1 32870 32805 7895 XOR\n2 1 7894 7895 8213 XOR\n2 1 8213 8169 35515 XOR\n2 1 35515 718 33943 XOR\n2 1 35523 710 33951 XOR\n2 1 33943 33945 30863 XOR\n2 1 33944 30863 30865 XOR\n2 1 33947 30865 30944 XOR\n2 1 33943 33944 30880 XOR\n2 1 33951 33953 31703 XOR\n2 1 33952 31703 31705 XOR\n2 1 33951 33952 31720 XOR\n2 1 35498 735 33926 XOR\n2 1 33926 31090 31089 XOR\n1 1 8171 7942 INV\n1 1 13952 32875 INV\n2 1 32875 32930 8145 XOR\n2 1 8145 35629 8040 XOR\n2 1 8040 8041 35503 XOR\n2 1 8158 8145 8022 XOR\n2 1 32867 8022 35511 XOR\n2 1 8148 32875 8010 XOR\n2 1 8010 8011 35520 XOR\n2 1 35520 713 33948 XOR\n2 1 33948 30865 30947 XOR\n2 1 33946 33948 30866 XOR\n2 1 33942 33948 30870 XOR\n2 1 30870 30865 30946 XOR\n2 1 33947 30870 30956 XOR\n2 1 33943 30956 30952 XOR\n2 1 30866 33947 30825 XOR\n2 1 33942 30825 30955 XOR\n2 1 30955 33942 30941 AND\n2 1 30956 30952 30939 AND\n2 1 35503 730 33931 XOR\n2 1 33931 31005 31084 XOR\n2 1 33931 33933 31004 XOR\n2 1 31004 31100 31085 XOR\n",
"2 1 31099 31084 31080 AND\n2 1 31080 31004 31008 XOR\n2 1 31100 31085 31076 AND\n2 1 32875 7995 35527 XOR\n2 1 35527 706 33955 XOR\n2 1 33955 31705 31784 XOR\n2 1 35511 722 33939 XOR\n2 1 33939 33941 28904 XOR\n1 1 13953 32876 INV\n2 1 32876 8021 35512 XOR\n2 1 35626 32876 7993 XOR\n2 1 32804 32876 8147 XOR\n2 1 8147 32931 8038 XOR\n2 1 8038 8039 35504 XOR\n2 1 35504 729 33932 XOR\n2 1 8147 8130 8009 XOR\n2 1 35630 8009 35521 XOR\n2 1 35521 712 33949 XOR\n2 1 7992 7993 35529 XOR\n2 1 35529 704 33957 XOR\n2 1 35512 721 33940 XOR\n2 1 33934 33940 28910 XOR\n2 1 28904 28910 28993 XOR\n2 1 33939 28910 28996 XOR\n2 1 33947 33949 30864 XOR\n2 1 30864 30960 30945 XOR\n2 1 33946 33949 30958 XOR\n2 1 30958 30880 30954 XOR\n2 1 30864 30870 30953 XOR\n2 1 30880 30953 30951 XOR\n2 1 30863 30958 30950 XOR\n2 1 33942 30950 30949 XOR\n2 1 30866 30864 30826 XOR\n2 1 30863 30826 30948 XOR\n2 1 33949 33943 30959 XOR\n2 1 33949 33944 30957 XOR\n2 1 30950 30954 30943 AND\n2 1 30943 30866 30869 XOR\n2 1 30951 30949 30942 AND\n2 1 30959 30944 30940 AND\n2 1 30940 30864 30868 XOR\n2 1 30953 30946 30938 AND\n2 1 30958 30947 30937 AND\n2 1 30937 30865 30867 XOR\n2 1 30869 30867 30873 XOR\n2 1 33949 30873 30878 XOR\n2 1 30960 30945 30936 AND\n2 1 30936 30942 30887 XOR\n2 1 30887 30878 30934 XOR\n2 1 30936 30937 30839 XOR\n2 1 30839 30840 30886 XOR\n2 1 30886 30868 30885 XOR\n2 1 30939 30885 30933 XOR\n2 1 30957 30948 30935 AND\n2 1 30935 30938 30888 XOR\n2 1 30935 30941 30892 XOR\n2 1 30892 30864 30879 XOR\n2 1 30887 30879 30931 XOR\n2 1 30936 30888 30882 XOR\n2 1 30868 30888 30842 XOR\n2 1 30842 30867 30932 XOR\n2 1 30873 30892 30841 XOR\n2 1 33947 30841 30884 XOR\n2 1 30939 30882 30838 XOR\n2 1 33943 30838 30926 XOR\n2 1 30934 30933 30930 AND\n2 1 30930 30884 30925 XOR\n2 1 30930 30932 30929 XOR\n2 1 30931 30929 30928 AND\n2 1 30928 30884 30927 XOR\n2 1 30928 30940 30833 XOR\n2 1 30833 30869 30829 XOR\n2 1 33949 30829 30832 XOR\n2 1 30928 30878 30830 XOR\n2 1 33947 30829 30828 XOR\n2 1 30925 30926 30924 AND\n2 1 30924 30932 30923 XOR\n2 1 30930 30924 30922 XOR\n2 1 30924 30882 30837 XOR\n2 1 30924 30941 30836 XOR\n2 1 30836 30938 30831 XOR\n2 1 30831 30832 30915 XOR\n2 1 30932 30922 30921 AND\n2 1 30921 30929 30919 XOR\n2 1 30921 30939 30891 XOR\n2 1 30891 30885 30913 XOR\n2 1 33943 30891 30874 XOR\n2 1 30874 30837 30920 XOR\n2 1 30927 30919 30918 AND\n2 1 30918 30887 30877 XOR\n2 1 30877 30879 30917 XOR\n2 1 30918 30942 30835 XOR\n2 1 30874 30835 30827 XOR\n2 1 30864 30827 30834 XOR\n2 1 30831 30834 30916 XOR\n2 1 30877 30830 30914 XOR\n2 1 30827 30828 30912 XOR\n2 1 30913 30950 30911 AND\n2 1 30920 30949 30910 AND\n2 1 30923 33942 30909 AND\n2 1 30909 30911 30890 XOR\n2 1 30914 30944 30908 AND\n2 1 30917 30956 30907 AND\n2 1 30907 30908 30893 XOR\n2 1 30927 30946 30906 AND\n2 1 30906 30907 30844 XOR\n2 1 30915 30947 30905 AND\n2 1 30912 30945 30904 AND\n2 1 30904 30893 30883 XOR\n2 1 30904 30907 30859 XOR\n1 1 30859 30856 INV\n2 1 30904 30905 30855 XOR\n2 1 30905 30883 30843 XOR\n2 1 30916 30948 30903 AND\n2 1 30913 30954 30902 AND\n2 1 30920 30951 30901 AND\n2 1 30923 30955 30900 AND\n2 1 30900 30883 30849 XOR\n1 1 30849 30846 INV\n2 1 30914 30959 30899 AND\n2 1 30899 30903 30875 XOR\n2 1 30908 30899 30860 XOR\n1 1 30875 30853 INV\n2 1 30917 30952 30898 AND\n2 1 30906 30898 30862 XOR\n2 1 30927 30953 30897 AND\n2 1 30853 30897 30852 XOR\n2 1 30852 30890 30848 XOR\n",
"2 1 30915 30958 30896 AND\n2 1 30896 30848 30851 XOR\n2 1 30912 30960 30895 AND\n2 1 30895 30896 30889 XOR\n2 1 30901 30889 30871 XOR\n2 1 30902 30871 30872 XOR\n2 1 30910 30872 30876 XOR\n2 1 30911 30876 30881 XOR\n2 1 30893 30881 35845 XOR\n2 1 30862 30889 30858 XOR\n2 1 30890 30858 30861 XOR\n2 1 30860 30861 30964 XOR\n2 1 30853 30858 30857 XOR\n2 1 30856 30857 30963 XOR\n2 1 30881 30855 30962 XOR\n2 1 30871 30848 30847 XOR\n2 1 30846 30847 35843 XOR\n2 1 30909 30876 30845 XOR\n2 1 30844 30845 35844 XOR\n2 1 30872 30843 35846 XOR\n2 1 30916 30957 30894 AND\n2 1 30905 30894 30854 XOR\n1 1 30854 30850 INV\n2 1 30850 30851 30961 XOR\n2 1 33932 31005 31087 XOR\n2 1 33930 33932 31006 XOR\n2 1 31083 31006 31009 XOR\n2 1 33926 33932 31010 XOR\n2 1 31010 31005 31086 XOR\n2 1 31004 31010 31093 XOR\n2 1 31020 31093 31091 XOR\n2 1 33931 31010 31096 XOR\n2 1 33927 31096 31092 XOR\n2 1 31006 31004 30966 XOR\n2 1 31003 30966 31088 XOR\n2 1 31006 33931 30965 XOR\n2 1 33926 30965 31095 XOR\n2 1 31091 31089 31082 AND\n2 1 31076 31082 31027 XOR\n2 1 31095 33926 31081 AND\n2 1 31096 31092 31079 AND\n2 1 31093 31086 31078 AND\n2 1 31098 31087 31077 AND\n2 1 31077 31005 31007 XOR\n2 1 31009 31007 31013 XOR\n2 1 33933 31013 31018 XOR\n2 1 31027 31018 31074 XOR\n2 1 31076 31077 30979 XOR\n2 1 30979 30980 31026 XOR\n2 1 31026 31008 31025 XOR\n2 1 31079 31025 31073 XOR\n2 1 31097 31088 31075 AND\n2 1 31075 31078 31028 XOR\n2 1 31075 31081 31032 XOR\n2 1 31032 31004 31019 XOR\n2 1 31027 31019 31071 XOR\n2 1 31076 31028 31022 XOR\n2 1 31008 31028 30982 XOR\n2 1 30982 31007 31072 XOR\n2 1 31013 31032 30981 XOR\n2 1 33931 30981 31024 XOR\n2 1 31079 31022 30978 XOR\n2 1 33927 30978 31066 XOR\n2 1 31074 31073 31070 AND\n2 1 31070 31024 31065 XOR\n2 1 31070 31072 31069 XOR\n2 1 31071 31069 31068 AND\n2 1 31068 31024 31067 XOR\n2 1 31068 31080 30973 XOR\n2 1 30973 31009 30969 XOR\n2 1 33933 30969 30972 XOR\n2 1 31068 31018 30970 XOR\n2 1 33931 30969 30968 XOR\n2 1 31065 31066 31064 AND\n2 1 31064 31072 31063 XOR\n2 1 31070 31064 31062 XOR\n2 1 31064 31022 30977 XOR\n2 1 31064 31081 30976 XOR\n2 1 30976 31078 30971 XOR\n2 1 30971 30972 31055 XOR\n2 1 31072 31062 31061 AND\n2 1 31061 31069 31059 XOR\n2 1 31061 31079 31031 XOR\n2 1 31031 31025 31053 XOR\n2 1 33927 31031 31014 XOR\n2 1 31014 30977 31060 XOR\n2 1 31067 31059 31058 AND\n2 1 31058 31027 31017 XOR\n2 1 31017 31019 31057 XOR\n2 1 31058 31082 30975 XOR\n2 1 31014 30975 30967 XOR\n2 1 31004 30967 30974 XOR\n2 1 30971 30974 31056 XOR\n2 1 31017 30970 31054 XOR\n2 1 30967 30968 31052 XOR\n2 1 31053 31090 31051 AND\n2 1 31060 31089 31050 AND\n2 1 31063 33926 31049 AND\n2 1 31049 31051 31030 XOR\n2 1 31054 31084 31048 AND\n2 1 31057 31096 31047 AND\n2 1 31047 31048 31033 XOR\n2 1 31067 31086 31046 AND\n2 1 31046 31047 30984 XOR\n2 1 31055 31087 31045 AND\n2 1 31052 31085 31044 AND\n2 1 31044 31033 31023 XOR\n2 1 31044 31047 30999 XOR\n1 1 30999 30996 INV\n2 1 31044 31045 30995 XOR\n2 1 31045 31023 30983 XOR\n2 1 31056 31088 31043 AND\n2 1 31053 31094 31042 AND\n2 1 31060 31091 31041 AND\n2 1 31063 31095 31040 AND\n2 1 31040 31023 30989 XOR\n1 1 30989 30986 INV\n2 1 31054 31099 31039 AND\n2 1 31039 31043 31015 XOR\n2 1 31048 31039 31000 XOR\n1 1 31015 30993 INV\n2 1 31057 31092 31038 AND\n2 1 31046 31038 31002 XOR\n2 1 31067 31093 31037 AND\n2 1 30993 31037 30992 XOR\n2 1 30992 31030 30988 XOR\n2 1 31055 31098 31036 AND\n2 1 31036 30988 30991 XOR\n",
"2 1 31052 31100 31035 AND\n2 1 31035 31036 31029 XOR\n2 1 31041 31029 31011 XOR\n2 1 31042 31011 31012 XOR\n2 1 31050 31012 31016 XOR\n2 1 31051 31016 31021 XOR\n2 1 31033 31021 35797 XOR\n2 1 31002 31029 30998 XOR\n2 1 31030 30998 31001 XOR\n2 1 31000 31001 31104 XOR\n2 1 30993 30998 30997 XOR\n2 1 30996 30997 31103 XOR\n2 1 31021 30995 31102 XOR\n2 1 31011 30988 30987 XOR\n2 1 30986 30987 35795 XOR\n2 1 35795 35810 8943 XOR\n1 1 8943 8804 INV\n2 1 31049 31016 30985 XOR\n2 1 30984 30985 35796 XOR\n2 1 8955 8804 8801 XOR\n2 1 31012 30983 35798 XOR\n2 1 35798 35814 8908 XOR\n1 1 8908 8803 INV\n2 1 8803 32809 8832 XOR\n2 1 8948 35797 8769 XOR\n1 1 8769 8767 INV\n2 1 31056 31097 31034 AND\n2 1 31045 31034 30994 XOR\n1 1 30994 30990 INV\n2 1 30990 30991 31101 XOR\n2 1 33955 33957 31704 XOR\n2 1 31704 31800 31785 XOR\n2 1 33954 33957 31798 XOR\n2 1 31798 31720 31794 XOR\n2 1 31703 31798 31790 XOR\n2 1 33950 31790 31789 XOR\n2 1 33957 33951 31799 XOR\n2 1 33957 33952 31797 XOR\n2 1 31790 31794 31783 AND\n2 1 31799 31784 31780 AND\n2 1 31780 31704 31708 XOR\n2 1 31800 31785 31776 AND\n2 1 8908 35796 8646 XOR\n2 1 7942 8168 7940 XOR\n2 1 8147 8145 7994 XOR\n2 1 32868 7994 35528 XOR\n2 1 35528 705 33956 XOR\n2 1 33956 31705 31787 XOR\n2 1 33954 33956 31706 XOR\n2 1 31783 31706 31709 XOR\n2 1 33950 33956 31710 XOR\n2 1 31710 31705 31786 XOR\n2 1 31704 31710 31793 XOR\n2 1 31720 31793 31791 XOR\n2 1 33955 31710 31796 XOR\n2 1 33951 31796 31792 XOR\n2 1 31706 31704 31666 XOR\n2 1 31703 31666 31788 XOR\n2 1 31706 33955 31665 XOR\n2 1 33950 31665 31795 XOR\n2 1 31791 31789 31782 AND\n2 1 31776 31782 31727 XOR\n2 1 31795 33950 31781 AND\n2 1 31796 31792 31779 AND\n2 1 31793 31786 31778 AND\n2 1 31798 31787 31777 AND\n2 1 31777 31705 31707 XOR\n2 1 31709 31707 31713 XOR\n2 1 33957 31713 31718 XOR\n2 1 31727 31718 31774 XOR\n2 1 31776 31777 31679 XOR\n2 1 31679 31680 31726 XOR\n2 1 31726 31708 31725 XOR\n2 1 31779 31725 31773 XOR\n2 1 31797 31788 31775 AND\n2 1 31775 31778 31728 XOR\n2 1 31775 31781 31732 XOR\n2 1 31732 31704 31719 XOR\n2 1 31727 31719 31771 XOR\n2 1 31776 31728 31722 XOR\n2 1 31708 31728 31682 XOR\n2 1 31682 31707 31772 XOR\n2 1 31713 31732 31681 XOR\n2 1 33955 31681 31724 XOR\n2 1 31779 31722 31678 XOR\n2 1 33951 31678 31766 XOR\n2 1 31774 31773 31770 AND\n2 1 31770 31724 31765 XOR\n2 1 31770 31772 31769 XOR\n2 1 31771 31769 31768 AND\n2 1 31768 31724 31767 XOR\n2 1 31768 31780 31673 XOR\n2 1 31673 31709 31669 XOR\n2 1 33957 31669 31672 XOR\n2 1 31768 31718 31670 XOR\n2 1 33955 31669 31668 XOR\n2 1 31765 31766 31764 AND\n2 1 31764 31772 31763 XOR\n2 1 31770 31764 31762 XOR\n2 1 31764 31722 31677 XOR\n2 1 31764 31781 31676 XOR\n2 1 31676 31778 31671 XOR\n2 1 31671 31672 31755 XOR\n2 1 31772 31762 31761 AND\n2 1 31761 31769 31759 XOR\n2 1 31761 31779 31731 XOR\n2 1 31731 31725 31753 XOR\n2 1 33951 31731 31714 XOR\n2 1 31714 31677 31760 XOR\n2 1 31767 31759 31758 AND\n2 1 31758 31727 31717 XOR\n2 1 31717 31719 31757 XOR\n2 1 31758 31782 31675 XOR\n2 1 31714 31675 31667 XOR\n2 1 31704 31667 31674 XOR\n2 1 31671 31674 31756 XOR\n2 1 31717 31670 31754 XOR\n2 1 31667 31668 31752 XOR\n2 1 31753 31790 31751 AND\n2 1 31760 31789 31750 AND\n2 1 31763 33950 31749 AND\n2 1 31749 31751 31730 XOR\n2 1 31754 31784 31748 AND\n2 1 31757 31796 31747 AND\n2 1 31747 31748 31733 XOR\n2 1 31767 31786 31746 AND\n2 1 31746 31747 31684 XOR\n2 1 31755 31787 31745 AND\n",
"2 1 31752 31785 31744 AND\n2 1 31744 31733 31723 XOR\n2 1 31744 31747 31699 XOR\n1 1 31699 31696 INV\n2 1 31744 31745 31695 XOR\n2 1 31745 31723 31683 XOR\n2 1 31756 31788 31743 AND\n2 1 31753 31794 31742 AND\n2 1 31760 31791 31741 AND\n2 1 31763 31795 31740 AND\n2 1 31740 31723 31689 XOR\n1 1 31689 31686 INV\n2 1 31754 31799 31739 AND\n2 1 31739 31743 31715 XOR\n2 1 31748 31739 31700 XOR\n1 1 31715 31693 INV\n2 1 31757 31792 31738 AND\n2 1 31746 31738 31702 XOR\n2 1 31767 31793 31737 AND\n2 1 31693 31737 31692 XOR\n2 1 31692 31730 31688 XOR\n2 1 31755 31798 31736 AND\n2 1 31736 31688 31691 XOR\n2 1 31752 31800 31735 AND\n2 1 31735 31736 31729 XOR\n2 1 31741 31729 31711 XOR\n2 1 31742 31711 31712 XOR\n2 1 31750 31712 31716 XOR\n2 1 31751 31716 31721 XOR\n2 1 31733 31721 35830 XOR\n2 1 31702 31729 31698 XOR\n2 1 31730 31698 31701 XOR\n2 1 31700 31701 31804 XOR\n2 1 31693 31698 31697 XOR\n2 1 31696 31697 31803 XOR\n2 1 31721 31695 31802 XOR\n2 1 31711 31688 31687 XOR\n2 1 31686 31687 35828 XOR\n2 1 31749 31716 31685 XOR\n2 1 31684 31685 35829 XOR\n2 1 31712 31683 35831 XOR\n2 1 31756 31797 31734 AND\n2 1 31745 31734 31694 XOR\n1 1 31694 31690 INV\n2 1 31690 31691 31801 XOR\n2 1 35552 681 33980 XOR\n2 1 33978 33980 30726 XOR\n2 1 30726 33979 30685 XOR\n1 1 22991 33022 INV\n2 1 32801 33022 8194 XOR\n2 1 8194 8128 7951 XOR\n2 1 32866 7951 35554 XOR\n2 1 35554 679 33982 XOR\n2 1 33022 7991 35530 XOR\n2 1 8194 8135 7962 XOR\n2 1 33106 7962 35546 XOR\n2 1 35530 703 33958 XOR\n2 1 33958 24233 24232 XOR\n2 1 33958 33964 24153 XOR\n2 1 24153 24148 24229 XOR\n2 1 24147 24153 24236 XOR\n2 1 24163 24236 24234 XOR\n2 1 33963 24153 24239 XOR\n2 1 33959 24239 24235 XOR\n2 1 33958 24108 24238 XOR\n2 1 24234 24232 24225 AND\n2 1 24219 24225 24170 XOR\n2 1 24170 24161 24217 XOR\n2 1 24238 33958 24224 AND\n2 1 24218 24224 24175 XOR\n2 1 24175 24147 24162 XOR\n2 1 24170 24162 24214 XOR\n2 1 24156 24175 24124 XOR\n2 1 33963 24124 24167 XOR\n2 1 24239 24235 24222 AND\n2 1 24222 24168 24216 XOR\n2 1 24236 24229 24221 AND\n2 1 24218 24221 24171 XOR\n2 1 24219 24171 24165 XOR\n2 1 24151 24171 24125 XOR\n2 1 24125 24150 24215 XOR\n2 1 24222 24165 24121 XOR\n2 1 33959 24121 24209 XOR\n2 1 24217 24216 24213 AND\n2 1 24213 24167 24208 XOR\n2 1 24213 24215 24212 XOR\n2 1 24214 24212 24211 AND\n2 1 24211 24167 24210 XOR\n2 1 24211 24223 24116 XOR\n2 1 24116 24152 24112 XOR\n2 1 33965 24112 24115 XOR\n2 1 24211 24161 24113 XOR\n2 1 33963 24112 24111 XOR\n2 1 24208 24209 24207 AND\n2 1 24207 24215 24206 XOR\n2 1 24213 24207 24205 XOR\n2 1 24207 24165 24120 XOR\n2 1 24207 24224 24119 XOR\n2 1 24119 24221 24114 XOR\n2 1 24114 24115 24198 XOR\n2 1 24215 24205 24204 AND\n2 1 24204 24212 24202 XOR\n2 1 24204 24222 24174 XOR\n2 1 24174 24168 24196 XOR\n2 1 33959 24174 24157 XOR\n2 1 24157 24120 24203 XOR\n2 1 24210 24202 24201 AND\n2 1 24201 24170 24160 XOR\n2 1 24160 24162 24200 XOR\n2 1 24201 24225 24118 XOR\n2 1 24157 24118 24110 XOR\n2 1 24147 24110 24117 XOR\n2 1 24114 24117 24199 XOR\n2 1 24160 24113 24197 XOR\n2 1 24110 24111 24195 XOR\n2 1 24196 24233 24194 AND\n2 1 24203 24232 24193 AND\n2 1 24206 33958 24192 AND\n2 1 24192 24194 24173 XOR\n2 1 24197 24227 24191 AND\n2 1 24200 24239 24190 AND\n2 1 24190 24191 24176 XOR\n2 1 24210 24229 24189 AND\n2 1 24189 24190 24127 XOR\n2 1 24198 24230 24188 AND\n2 1 24195 24228 24187 AND\n2 1 24187 24176 24166 XOR\n2 1 24187 24190 24142 XOR\n",
"1 1 24142 24139 INV\n2 1 24187 24188 24138 XOR\n2 1 24188 24166 24126 XOR\n2 1 24199 24231 24186 AND\n2 1 24196 24237 24185 AND\n2 1 24203 24234 24184 AND\n2 1 24206 24238 24183 AND\n2 1 24183 24166 24132 XOR\n1 1 24132 24129 INV\n2 1 24197 24242 24182 AND\n2 1 24182 24186 24158 XOR\n2 1 24191 24182 24143 XOR\n1 1 24158 24136 INV\n2 1 24200 24235 24181 AND\n2 1 24189 24181 24145 XOR\n2 1 24210 24236 24180 AND\n2 1 24136 24180 24135 XOR\n2 1 24135 24173 24131 XOR\n2 1 24198 24241 24179 AND\n2 1 24179 24131 24134 XOR\n2 1 24195 24243 24178 AND\n2 1 24178 24179 24172 XOR\n2 1 24184 24172 24154 XOR\n2 1 24185 24154 24155 XOR\n2 1 24193 24155 24159 XOR\n2 1 24194 24159 24164 XOR\n2 1 24176 24164 35817 XOR\n2 1 24145 24172 24141 XOR\n2 1 24173 24141 24144 XOR\n2 1 24143 24144 24247 XOR\n2 1 24136 24141 24140 XOR\n2 1 24139 24140 24246 XOR\n2 1 24164 24138 24245 XOR\n2 1 24154 24131 24130 XOR\n2 1 24129 24130 35815 XOR\n2 1 24192 24159 24128 XOR\n2 1 24127 24128 35816 XOR\n2 1 24155 24126 35818 XOR\n2 1 24199 24240 24177 AND\n2 1 24188 24177 24137 XOR\n1 1 24137 24133 INV\n2 1 24133 24134 24244 XOR\n2 1 35818 35831 8907 XOR\n1 1 8907 8650 INV\n2 1 35546 687 33974 XOR\n2 1 33974 33980 30730 XOR\n2 1 33979 30730 30816 XOR\n2 1 33974 30685 30815 XOR\n2 1 30815 33974 30801 AND\n2 1 33982 33988 31570 XOR\n2 1 31564 31570 31653 XOR\n2 1 33987 31570 31656 XOR\n2 1 8650 35828 8651 XOR\n2 1 8907 35829 8654 XOR\n2 1 8194 8182 7974 XOR\n2 1 32866 33022 7910 XOR\n2 1 7909 7910 8207 XOR\n2 1 8207 8193 35547 XOR\n2 1 35547 686 33975 XOR\n2 1 33975 33977 30723 XOR\n2 1 33976 30723 30725 XOR\n2 1 33980 30725 30807 XOR\n2 1 33979 30725 30804 XOR\n2 1 30730 30725 30806 XOR\n2 1 33975 30816 30812 XOR\n2 1 33975 33976 30740 XOR\n2 1 30816 30812 30799 AND\n1 1 24245 33045 INV\n2 1 35818 33045 8787 XOR\n1 1 24246 33046 INV\n1 1 24247 33047 INV\n1 1 24244 33052 INV\n1 1 30963 33189 INV\n1 1 30964 33190 INV\n1 1 31103 33193 INV\n2 1 33193 33177 8691 XOR\n2 1 8690 8691 8969 XOR\n2 1 33193 8694 8875 XOR\n2 1 33193 32809 8963 XOR\n1 1 31104 33194 INV\n2 1 30543 33194 8686 XOR\n2 1 33194 32810 8964 XOR\n1 1 30961 33195 INV\n1 1 30962 33196 INV\n1 1 31101 33199 INV\n2 1 8945 33199 8750 XOR\n1 1 31102 33200 INV\n2 1 8695 33200 8730 XOR\n1 1 31803 33213 INV\n1 1 31804 33214 INV\n2 1 8650 33214 8648 XOR\n1 1 31801 33219 INV\n2 1 33219 33052 8807 XOR\n1 1 31802 33220 INV\n2 1 33045 33220 8916 XOR\n1 1 8131 33232 INV\n2 1 33232 35632 7971 XOR\n2 1 33232 35649 7952 XOR\n2 1 7952 7953 35553 XOR\n2 1 33232 32800 7975 XOR\n2 1 35553 680 33981 XOR\n2 1 33979 33981 30724 XOR\n2 1 30724 30820 30805 XOR\n2 1 33978 33981 30818 XOR\n2 1 30818 30740 30814 XOR\n2 1 30724 30730 30813 XOR\n2 1 30740 30813 30811 XOR\n2 1 30723 30818 30810 XOR\n2 1 33974 30810 30809 XOR\n2 1 30726 30724 30686 XOR\n2 1 30723 30686 30808 XOR\n2 1 33981 33975 30819 XOR\n2 1 33981 33976 30817 XOR\n2 1 30810 30814 30803 AND\n2 1 30803 30726 30729 XOR\n2 1 30811 30809 30802 AND\n2 1 30819 30804 30800 AND\n2 1 30800 30724 30728 XOR\n2 1 30813 30806 30798 AND\n2 1 30818 30807 30797 AND\n2 1 30797 30725 30727 XOR\n2 1 30729 30727 30733 XOR\n2 1 33981 30733 30738 XOR\n2 1 30820 30805 30796 AND\n2 1 30796 30802 30747 XOR\n2 1 30747 30738 30794 XOR\n2 1 30796 30797 30699 XOR\n2 1 30699 30700 30746 XOR\n",
"2 1 30746 30728 30745 XOR\n2 1 30799 30745 30793 XOR\n2 1 30817 30808 30795 AND\n2 1 30795 30798 30748 XOR\n2 1 30795 30801 30752 XOR\n2 1 30752 30724 30739 XOR\n2 1 30747 30739 30791 XOR\n2 1 30796 30748 30742 XOR\n2 1 30728 30748 30702 XOR\n2 1 30702 30727 30792 XOR\n2 1 30733 30752 30701 XOR\n2 1 33979 30701 30744 XOR\n2 1 30799 30742 30698 XOR\n2 1 33975 30698 30786 XOR\n2 1 30794 30793 30790 AND\n2 1 30790 30744 30785 XOR\n2 1 30790 30792 30789 XOR\n2 1 30791 30789 30788 AND\n2 1 30788 30744 30787 XOR\n2 1 30788 30800 30693 XOR\n2 1 30693 30729 30689 XOR\n2 1 33981 30689 30692 XOR\n2 1 30788 30738 30690 XOR\n2 1 33979 30689 30688 XOR\n2 1 30785 30786 30784 AND\n2 1 30784 30792 30783 XOR\n2 1 30790 30784 30782 XOR\n2 1 30784 30742 30697 XOR\n2 1 30784 30801 30696 XOR\n2 1 30696 30798 30691 XOR\n2 1 30691 30692 30775 XOR\n2 1 30792 30782 30781 AND\n2 1 30781 30789 30779 XOR\n2 1 30781 30799 30751 XOR\n2 1 30751 30745 30773 XOR\n2 1 33975 30751 30734 XOR\n2 1 30734 30697 30780 XOR\n2 1 30787 30779 30778 AND\n2 1 30778 30747 30737 XOR\n2 1 30737 30739 30777 XOR\n2 1 30778 30802 30695 XOR\n2 1 30734 30695 30687 XOR\n2 1 30724 30687 30694 XOR\n2 1 30691 30694 30776 XOR\n2 1 30737 30690 30774 XOR\n2 1 30687 30688 30772 XOR\n2 1 30773 30810 30771 AND\n2 1 30780 30809 30770 AND\n2 1 30783 33974 30769 AND\n2 1 30769 30771 30750 XOR\n2 1 30774 30804 30768 AND\n2 1 30777 30816 30767 AND\n2 1 30767 30768 30753 XOR\n2 1 30787 30806 30766 AND\n2 1 30766 30767 30704 XOR\n2 1 30775 30807 30765 AND\n2 1 30772 30805 30764 AND\n2 1 30764 30753 30743 XOR\n2 1 30764 30767 30719 XOR\n1 1 30719 30716 INV\n2 1 30764 30765 30715 XOR\n2 1 30765 30743 30703 XOR\n2 1 30776 30808 30763 AND\n2 1 30773 30814 30762 AND\n2 1 30780 30811 30761 AND\n2 1 30783 30815 30760 AND\n2 1 30760 30743 30709 XOR\n1 1 30709 30706 INV\n2 1 30774 30819 30759 AND\n2 1 30759 30763 30735 XOR\n2 1 30768 30759 30720 XOR\n1 1 30735 30713 INV\n2 1 30777 30812 30758 AND\n2 1 30766 30758 30722 XOR\n2 1 30787 30813 30757 AND\n2 1 30713 30757 30712 XOR\n2 1 30712 30750 30708 XOR\n2 1 30775 30818 30756 AND\n2 1 30756 30708 30711 XOR\n2 1 30772 30820 30755 AND\n2 1 30755 30756 30749 XOR\n2 1 30761 30749 30731 XOR\n2 1 30762 30731 30732 XOR\n2 1 30770 30732 30736 XOR\n2 1 30771 30736 30741 XOR\n2 1 30753 30741 35862 XOR\n2 1 8929 35862 8863 XOR\n2 1 35862 35866 8911 XOR\n2 1 8920 8911 8891 XOR\n2 1 30722 30749 30718 XOR\n2 1 30750 30718 30721 XOR\n2 1 30720 30721 30824 XOR\n2 1 30713 30718 30717 XOR\n2 1 30716 30717 30823 XOR\n2 1 30741 30715 30822 XOR\n2 1 30731 30708 30707 XOR\n2 1 30706 30707 35860 XOR\n2 1 30769 30736 30705 XOR\n2 1 30704 30705 35861 XOR\n2 1 35862 35861 8700 XOR\n2 1 30732 30703 35863 XOR\n2 1 30776 30817 30754 AND\n2 1 30765 30754 30714 XOR\n1 1 30714 30710 INV\n2 1 30710 30711 30821 XOR\n2 1 35863 35867 8894 XOR\n2 1 8894 35865 8699 XOR\n2 1 8699 8700 8966 XOR\n2 1 35860 35864 8912 XOR\n2 1 8912 32807 8701 XOR\n1 1 8894 8854 INV\n2 1 8854 35852 8853 XOR\n2 1 8854 33212 8885 XOR\n2 1 7974 7975 7973 XOR\n1 1 7973 35539 INV\n2 1 35539 694 33967 XOR\n2 1 33967 28856 28852 XOR\n2 1 33967 33968 28780 XOR\n2 1 28780 28853 28851 XOR\n2 1 33973 33967 28859 XOR\n2 1 28856 28852 28839 AND\n2 1 7970 7971 35541 XOR\n2 1 35541 692 33969 XOR\n2 1 33967 33969 28763 XOR\n2 1 33968 28763 28765 XOR\n2 1 33972 28765 28847 XOR\n2 1 33971 28765 28844 XOR\n2 1 28770 28765 28846 XOR\n",
"2 1 33969 33968 28740 XOR\n2 1 28859 28844 28840 AND\n2 1 28840 28764 28768 XOR\n2 1 28853 28846 28838 AND\n2 1 33232 35633 7969 XOR\n2 1 7968 7969 35542 XOR\n2 1 35542 691 33970 XOR\n2 1 33970 33972 28766 XOR\n2 1 33970 33973 28858 XOR\n2 1 28858 28780 28854 XOR\n2 1 28763 28858 28850 XOR\n2 1 33966 28850 28849 XOR\n2 1 33968 33970 28860 XOR\n2 1 28764 28860 28845 XOR\n2 1 28766 28764 28726 XOR\n2 1 28763 28726 28848 XOR\n2 1 28766 33971 28725 XOR\n2 1 33966 28725 28855 XOR\n2 1 28850 28854 28843 AND\n2 1 28843 28766 28769 XOR\n2 1 28851 28849 28842 AND\n2 1 28855 33966 28841 AND\n2 1 28858 28847 28837 AND\n2 1 28837 28765 28767 XOR\n2 1 28769 28767 28773 XOR\n2 1 33973 28773 28778 XOR\n2 1 28860 28845 28836 AND\n2 1 28836 28842 28787 XOR\n2 1 28787 28778 28834 XOR\n2 1 28836 28837 28739 XOR\n2 1 28739 28740 28786 XOR\n2 1 28786 28768 28785 XOR\n2 1 28839 28785 28833 XOR\n2 1 28857 28848 28835 AND\n2 1 28835 28838 28788 XOR\n2 1 28835 28841 28792 XOR\n2 1 28792 28764 28779 XOR\n2 1 28787 28779 28831 XOR\n2 1 28836 28788 28782 XOR\n2 1 28768 28788 28742 XOR\n2 1 28742 28767 28832 XOR\n2 1 28773 28792 28741 XOR\n2 1 33971 28741 28784 XOR\n2 1 28839 28782 28738 XOR\n2 1 33967 28738 28826 XOR\n2 1 28834 28833 28830 AND\n2 1 28830 28784 28825 XOR\n2 1 28830 28832 28829 XOR\n2 1 28831 28829 28828 AND\n2 1 28828 28784 28827 XOR\n2 1 28828 28840 28733 XOR\n2 1 28733 28769 28729 XOR\n2 1 33973 28729 28732 XOR\n2 1 28828 28778 28730 XOR\n2 1 33971 28729 28728 XOR\n2 1 28825 28826 28824 AND\n2 1 28824 28832 28823 XOR\n2 1 28830 28824 28822 XOR\n2 1 28824 28782 28737 XOR\n2 1 28824 28841 28736 XOR\n2 1 28736 28838 28731 XOR\n2 1 28731 28732 28815 XOR\n2 1 28832 28822 28821 AND\n2 1 28821 28829 28819 XOR\n2 1 28821 28839 28791 XOR\n2 1 28791 28785 28813 XOR\n2 1 33967 28791 28774 XOR\n2 1 28774 28737 28820 XOR\n2 1 28827 28819 28818 AND\n2 1 28818 28787 28777 XOR\n2 1 28777 28779 28817 XOR\n2 1 28818 28842 28735 XOR\n2 1 28774 28735 28727 XOR\n2 1 28764 28727 28734 XOR\n2 1 28731 28734 28816 XOR\n2 1 28777 28730 28814 XOR\n2 1 28727 28728 28812 XOR\n2 1 28813 28850 28811 AND\n2 1 28820 28849 28810 AND\n2 1 28823 33966 28809 AND\n2 1 28809 28811 28790 XOR\n2 1 28814 28844 28808 AND\n2 1 28817 28856 28807 AND\n2 1 28807 28808 28793 XOR\n2 1 28827 28846 28806 AND\n2 1 28806 28807 28744 XOR\n2 1 28815 28847 28805 AND\n2 1 28812 28845 28804 AND\n2 1 28804 28793 28783 XOR\n2 1 28804 28807 28759 XOR\n1 1 28759 28756 INV\n2 1 28804 28805 28755 XOR\n2 1 28805 28783 28743 XOR\n2 1 28816 28848 28803 AND\n2 1 28813 28854 28802 AND\n2 1 28820 28851 28801 AND\n2 1 28823 28855 28800 AND\n2 1 28800 28783 28749 XOR\n1 1 28749 28746 INV\n2 1 28814 28859 28799 AND\n2 1 28799 28803 28775 XOR\n2 1 28808 28799 28760 XOR\n1 1 28775 28753 INV\n2 1 28817 28852 28798 AND\n2 1 28806 28798 28762 XOR\n2 1 28827 28853 28797 AND\n2 1 28753 28797 28752 XOR\n2 1 28752 28790 28748 XOR\n2 1 28815 28858 28796 AND\n2 1 28796 28748 28751 XOR\n2 1 28812 28860 28795 AND\n2 1 28795 28796 28789 XOR\n2 1 28801 28789 28771 XOR\n2 1 28802 28771 28772 XOR\n2 1 28810 28772 28776 XOR\n2 1 28811 28776 28781 XOR\n2 1 28793 28781 35801 XOR\n2 1 35797 35801 8956 XOR\n2 1 8956 8948 8843 XOR\n2 1 33199 8843 35680 XOR\n2 1 35680 626 34035 XOR\n2 1 28762 28789 28758 XOR\n2 1 28790 28758 28761 XOR\n2 1 28760 28761 28864 XOR\n2 1 28753 28758 28757 XOR\n2 1 28756 28757 28863 XOR\n2 1 28781 28755 28862 XOR\n2 1 32813 28862 8751 XOR\n",
"2 1 8750 8751 8749 XOR\n1 1 8749 35673 INV\n2 1 35673 633 34028 XOR\n2 1 28771 28748 28747 XOR\n2 1 28746 28747 35799 XOR\n2 1 35795 35799 8689 XOR\n2 1 35799 35806 8940 XOR\n2 1 28809 28776 28745 XOR\n2 1 28744 28745 35800 XOR\n2 1 35796 35800 8965 XOR\n2 1 35807 35800 8684 XOR\n1 1 8965 8846 INV\n2 1 8846 8952 8844 XOR\n2 1 8968 8965 35694 XOR\n2 1 35694 612 34049 XOR\n2 1 28772 28743 35804 XOR\n2 1 35798 35804 8901 XOR\n2 1 8639 35804 8731 XOR\n2 1 8730 8731 35674 XOR\n2 1 35674 632 34029 XOR\n2 1 8901 35796 8688 XOR\n2 1 8964 8901 8714 XOR\n2 1 33177 8714 35675 XOR\n2 1 35675 631 34030 XOR\n2 1 8688 8689 8970 XOR\n1 1 8901 8687 INV\n2 1 8687 35797 8845 XOR\n2 1 35804 35809 8902 XOR\n2 1 8902 35812 8683 XOR\n2 1 8683 8684 8972 XOR\n2 1 8972 8956 35687 XOR\n2 1 35687 619 34042 XOR\n2 1 8970 8955 35678 XOR\n2 1 35678 628 34033 XOR\n2 1 28816 28857 28794 AND\n2 1 28805 28794 28754 XOR\n1 1 28754 28750 INV\n2 1 28750 28751 28861 XOR\n1 1 28862 35803 INV\n2 1 33200 35803 8951 XOR\n2 1 8951 8900 8841 XOR\n1 1 28861 35802 INV\n2 1 33199 35802 8953 XOR\n2 1 8953 8945 8842 XOR\n2 1 33200 8842 35681 XOR\n2 1 35681 625 34036 XOR\n2 1 34030 34036 28490 XOR\n2 1 34035 28490 28576 XOR\n2 1 8953 8952 8816 XOR\n2 1 33183 8816 35696 XOR\n2 1 35696 610 34051 XOR\n1 1 8902 8835 INV\n2 1 8835 35811 8834 XOR\n2 1 8963 8940 8815 XOR\n2 1 35812 28861 8768 XOR\n2 1 8767 8768 35672 XOR\n2 1 35672 634 34027 XOR\n2 1 34027 34029 24007 XOR\n2 1 8951 8948 8814 XOR\n2 1 33184 28862 8825 XOR\n2 1 33184 8814 35697 XOR\n2 1 35697 609 34052 XOR\n1 1 8940 8822 INV\n2 1 8822 35795 8820 XOR\n2 1 35798 8841 35682 XOR\n2 1 35682 624 34037 XOR\n2 1 34035 34037 28484 XOR\n2 1 28484 28490 28573 XOR\n2 1 8951 8639 8826 XOR\n2 1 33183 28861 8827 XOR\n2 1 8965 8822 8833 XOR\n2 1 8820 8821 35693 XOR\n2 1 35693 613 34048 XOR\n2 1 34049 34048 26920 XOR\n2 1 8945 8901 8813 XOR\n2 1 35809 8813 35698 XOR\n2 1 35698 608 34053 XOR\n2 1 34051 34053 26944 XOR\n2 1 34053 34048 27037 XOR\n2 1 8964 8902 8840 XOR\n2 1 8687 35814 8824 XOR\n2 1 8824 8825 35690 XOR\n2 1 35690 616 34045 XOR\n2 1 34042 34045 30398 XOR\n2 1 35810 8815 35669 XOR\n2 1 35669 637 34024 XOR\n2 1 34029 34024 24100 XOR\n2 1 8956 8955 8819 XOR\n2 1 8833 8834 35686 XOR\n2 1 35686 620 34041 XOR\n1 1 8819 8817 INV\n2 1 8803 35800 8802 XOR\n2 1 8801 8802 35670 XOR\n2 1 35670 636 34025 XOR\n2 1 34025 34024 23983 XOR\n2 1 8953 32813 8828 XOR\n2 1 35808 35801 8829 XOR\n2 1 8828 8829 35688 XOR\n2 1 35688 618 34043 XOR\n2 1 34043 34045 30304 XOR\n2 1 8826 8827 35689 XOR\n2 1 35689 617 34044 XOR\n2 1 34042 34044 30306 XOR\n2 1 30306 30304 30266 XOR\n2 1 30306 34043 30265 XOR\n2 1 8817 8818 35695 XOR\n2 1 35695 611 34050 XOR\n2 1 34050 34052 26946 XOR\n2 1 34050 34053 27038 XOR\n2 1 34048 34050 27040 XOR\n2 1 26944 27040 27025 XOR\n2 1 26946 26944 26906 XOR\n2 1 26946 34051 26905 XOR\n2 1 27040 27025 27016 AND\n2 1 8844 8845 35679 XOR\n2 1 35679 627 34034 XOR\n2 1 34034 34036 28486 XOR\n2 1 34034 34037 28578 XOR\n2 1 28486 28484 28446 XOR\n2 1 28486 34035 28445 XOR\n2 1 34030 28445 28575 XOR\n2 1 28575 34030 28561 AND\n2 1 35811 35801 8647 XOR\n2 1 8646 8647 8987 XOR\n2 1 8987 8952 35671 XOR\n2 1 35671 635 34026 XOR\n2 1 34026 34028 24009 XOR\n2 1 34026 34029 24101 XOR\n",
"2 1 34024 34026 24103 XOR\n2 1 24007 24103 24088 XOR\n2 1 24009 24007 23969 XOR\n2 1 24009 34027 23968 XOR\n2 1 24103 24088 24079 AND\n1 1 28864 33133 INV\n2 1 8687 33133 8685 XOR\n2 1 8685 8686 8971 XOR\n2 1 33133 33177 8941 XOR\n2 1 8941 8908 8893 XOR\n2 1 32810 8893 35667 XOR\n2 1 35667 639 34022 XOR\n2 1 34022 34028 24013 XOR\n2 1 24007 24013 24096 XOR\n2 1 34027 24013 24099 XOR\n2 1 34022 23968 24098 XOR\n2 1 24098 34022 24084 AND\n2 1 8971 8963 35676 XOR\n2 1 35676 630 34031 XOR\n2 1 34031 34033 28483 XOR\n2 1 34031 28576 28572 XOR\n2 1 28483 28578 28570 XOR\n2 1 34030 28570 28569 XOR\n2 1 28483 28446 28568 XOR\n2 1 34037 34031 28579 XOR\n2 1 28576 28572 28559 AND\n2 1 33133 8840 35683 XOR\n2 1 35683 623 34038 XOR\n2 1 34038 34044 30310 XOR\n2 1 30304 30310 30393 XOR\n2 1 34043 30310 30396 XOR\n2 1 34038 30265 30395 XOR\n2 1 30395 34038 30381 AND\n2 1 8963 8941 8838 XOR\n2 1 8941 8900 8823 XOR\n2 1 33194 8823 35691 XOR\n2 1 35691 615 34046 XOR\n2 1 34046 34052 26950 XOR\n2 1 26944 26950 27033 XOR\n2 1 34051 26950 27036 XOR\n2 1 34046 26905 27035 XOR\n2 1 27035 34046 27021 AND\n1 1 28863 33140 INV\n2 1 8804 33140 8874 XOR\n2 1 33140 35805 8942 XOR\n2 1 8969 8942 35692 XOR\n2 1 35692 614 34047 XOR\n2 1 34047 34049 26943 XOR\n2 1 34048 26943 26945 XOR\n2 1 34052 26945 27027 XOR\n2 1 34051 26945 27024 XOR\n2 1 26950 26945 27026 XOR\n2 1 34047 27036 27032 XOR\n2 1 26943 27038 27030 XOR\n2 1 34046 27030 27029 XOR\n2 1 34047 34048 26960 XOR\n2 1 26960 27033 27031 XOR\n2 1 27038 26960 27034 XOR\n2 1 26943 26906 27028 XOR\n2 1 34053 34047 27039 XOR\n2 1 27030 27034 27023 AND\n2 1 27023 26946 26949 XOR\n2 1 27031 27029 27022 AND\n2 1 27016 27022 26967 XOR\n2 1 27039 27024 27020 AND\n2 1 27020 26944 26948 XOR\n2 1 27036 27032 27019 AND\n2 1 27033 27026 27018 AND\n2 1 27038 27027 27017 AND\n2 1 27017 26945 26947 XOR\n2 1 26949 26947 26953 XOR\n2 1 34053 26953 26958 XOR\n2 1 26967 26958 27014 XOR\n2 1 27016 27017 26919 XOR\n2 1 26919 26920 26966 XOR\n2 1 26966 26948 26965 XOR\n2 1 27019 26965 27013 XOR\n2 1 27037 27028 27015 AND\n2 1 27015 27018 26968 XOR\n2 1 27015 27021 26972 XOR\n2 1 26972 26944 26959 XOR\n2 1 26967 26959 27011 XOR\n2 1 27016 26968 26962 XOR\n2 1 26948 26968 26922 XOR\n2 1 26922 26947 27012 XOR\n2 1 26953 26972 26921 XOR\n2 1 34051 26921 26964 XOR\n2 1 27019 26962 26918 XOR\n2 1 34047 26918 27006 XOR\n2 1 27014 27013 27010 AND\n2 1 27010 26964 27005 XOR\n2 1 27010 27012 27009 XOR\n2 1 27011 27009 27008 AND\n2 1 27008 26964 27007 XOR\n2 1 27008 27020 26913 XOR\n2 1 26913 26949 26909 XOR\n2 1 34053 26909 26912 XOR\n2 1 27008 26958 26910 XOR\n2 1 34051 26909 26908 XOR\n2 1 27005 27006 27004 AND\n2 1 27004 27012 27003 XOR\n2 1 27010 27004 27002 XOR\n2 1 27004 26962 26917 XOR\n2 1 27004 27021 26916 XOR\n2 1 26916 27018 26911 XOR\n2 1 26911 26912 26995 XOR\n2 1 27012 27002 27001 AND\n2 1 27001 27009 26999 XOR\n2 1 27001 27019 26971 XOR\n2 1 26971 26965 26993 XOR\n2 1 34047 26971 26954 XOR\n2 1 26954 26917 27000 XOR\n2 1 27007 26999 26998 AND\n2 1 26998 26967 26957 XOR\n2 1 26957 26959 26997 XOR\n2 1 26998 27022 26915 XOR\n2 1 26954 26915 26907 XOR\n2 1 26944 26907 26914 XOR\n2 1 26911 26914 26996 XOR\n2 1 26957 26910 26994 XOR\n2 1 26907 26908 26992 XOR\n2 1 26993 27030 26991 AND\n2 1 27000 27029 26990 AND\n2 1 27003 34046 26989 AND\n2 1 26989 26991 26970 XOR\n2 1 26994 27024 26988 AND\n2 1 26997 27036 26987 AND\n2 1 26987 26988 26973 XOR\n",
"2 1 27007 27026 26986 AND\n2 1 26986 26987 26924 XOR\n2 1 26995 27027 26985 AND\n2 1 26992 27025 26984 AND\n2 1 26984 26973 26963 XOR\n2 1 26984 26987 26939 XOR\n1 1 26939 26936 INV\n2 1 26984 26985 26935 XOR\n2 1 26985 26963 26923 XOR\n2 1 26996 27028 26983 AND\n2 1 26993 27034 26982 AND\n2 1 27000 27031 26981 AND\n2 1 27003 27035 26980 AND\n2 1 26980 26963 26929 XOR\n1 1 26929 26926 INV\n2 1 26994 27039 26979 AND\n2 1 26979 26983 26955 XOR\n2 1 26988 26979 26940 XOR\n1 1 26955 26933 INV\n2 1 26997 27032 26978 AND\n2 1 26986 26978 26942 XOR\n2 1 27007 27033 26977 AND\n2 1 26933 26977 26932 XOR\n2 1 26932 26970 26928 XOR\n2 1 26995 27038 26976 AND\n2 1 26976 26928 26931 XOR\n2 1 26992 27040 26975 AND\n2 1 26975 26976 26969 XOR\n2 1 26981 26969 26951 XOR\n2 1 26982 26951 26952 XOR\n2 1 26990 26952 26956 XOR\n2 1 26991 26956 26961 XOR\n2 1 26973 26961 36013 XOR\n2 1 26942 26969 26938 XOR\n2 1 26970 26938 26941 XOR\n2 1 26940 26941 27044 XOR\n2 1 26933 26938 26937 XOR\n2 1 26936 26937 27043 XOR\n2 1 26961 26935 27042 XOR\n2 1 26951 26928 26927 XOR\n2 1 26926 26927 36011 XOR\n2 1 26989 26956 26925 XOR\n2 1 26924 26925 36012 XOR\n2 1 26952 26923 36015 XOR\n2 1 26996 27037 26974 AND\n2 1 26985 26974 26934 XOR\n1 1 26934 26930 INV\n2 1 26930 26931 27041 XOR\n1 1 27042 36014 INV\n2 1 8874 8875 35677 XOR\n2 1 35677 629 34032 XOR\n2 1 34032 28483 28485 XOR\n2 1 34036 28485 28567 XOR\n2 1 34035 28485 28564 XOR\n2 1 28490 28485 28566 XOR\n2 1 34031 34032 28500 XOR\n2 1 28500 28573 28571 XOR\n2 1 28578 28500 28574 XOR\n2 1 34032 34034 28580 XOR\n2 1 28484 28580 28565 XOR\n2 1 34033 34032 28460 XOR\n2 1 34037 34032 28577 XOR\n2 1 28570 28574 28563 AND\n2 1 28563 28486 28489 XOR\n2 1 28571 28569 28562 AND\n2 1 28579 28564 28560 AND\n2 1 28560 28484 28488 XOR\n2 1 28573 28566 28558 AND\n2 1 28578 28567 28557 AND\n2 1 28557 28485 28487 XOR\n2 1 28489 28487 28493 XOR\n2 1 34037 28493 28498 XOR\n2 1 28580 28565 28556 AND\n2 1 28556 28562 28507 XOR\n2 1 28507 28498 28554 XOR\n2 1 28556 28557 28459 XOR\n2 1 28459 28460 28506 XOR\n2 1 28506 28488 28505 XOR\n2 1 28559 28505 28553 XOR\n2 1 28577 28568 28555 AND\n2 1 28555 28558 28508 XOR\n2 1 28555 28561 28512 XOR\n2 1 28512 28484 28499 XOR\n2 1 28507 28499 28551 XOR\n2 1 28556 28508 28502 XOR\n2 1 28488 28508 28462 XOR\n2 1 28462 28487 28552 XOR\n2 1 28493 28512 28461 XOR\n2 1 34035 28461 28504 XOR\n2 1 28559 28502 28458 XOR\n2 1 34031 28458 28546 XOR\n2 1 28554 28553 28550 AND\n2 1 28550 28504 28545 XOR\n2 1 28550 28552 28549 XOR\n2 1 28551 28549 28548 AND\n2 1 28548 28504 28547 XOR\n2 1 28548 28560 28453 XOR\n2 1 28453 28489 28449 XOR\n2 1 34037 28449 28452 XOR\n2 1 28548 28498 28450 XOR\n2 1 34035 28449 28448 XOR\n2 1 28545 28546 28544 AND\n2 1 28544 28552 28543 XOR\n2 1 28550 28544 28542 XOR\n2 1 28544 28502 28457 XOR\n2 1 28544 28561 28456 XOR\n2 1 28456 28558 28451 XOR\n2 1 28451 28452 28535 XOR\n2 1 28552 28542 28541 AND\n2 1 28541 28549 28539 XOR\n2 1 28541 28559 28511 XOR\n2 1 28511 28505 28533 XOR\n2 1 34031 28511 28494 XOR\n2 1 28494 28457 28540 XOR\n2 1 28547 28539 28538 AND\n2 1 28538 28507 28497 XOR\n2 1 28497 28499 28537 XOR\n2 1 28538 28562 28455 XOR\n2 1 28494 28455 28447 XOR\n2 1 28484 28447 28454 XOR\n2 1 28451 28454 28536 XOR\n2 1 28497 28450 28534 XOR\n2 1 28447 28448 28532 XOR\n2 1 28533 28570 28531 AND\n2 1 28540 28569 28530 AND\n2 1 28543 34030 28529 AND\n2 1 28529 28531 28510 XOR\n2 1 28534 28564 28528 AND\n",
"2 1 28537 28576 28527 AND\n2 1 28527 28528 28513 XOR\n2 1 28547 28566 28526 AND\n2 1 28526 28527 28464 XOR\n2 1 28535 28567 28525 AND\n2 1 28532 28565 28524 AND\n2 1 28524 28513 28503 XOR\n2 1 28524 28527 28479 XOR\n1 1 28479 28476 INV\n2 1 28524 28525 28475 XOR\n2 1 28525 28503 28463 XOR\n2 1 28536 28568 28523 AND\n2 1 28533 28574 28522 AND\n2 1 28540 28571 28521 AND\n2 1 28543 28575 28520 AND\n2 1 28520 28503 28469 XOR\n1 1 28469 28466 INV\n2 1 28534 28579 28519 AND\n2 1 28519 28523 28495 XOR\n2 1 28528 28519 28480 XOR\n1 1 28495 28473 INV\n2 1 28537 28572 28518 AND\n2 1 28526 28518 28482 XOR\n2 1 28547 28573 28517 AND\n2 1 28473 28517 28472 XOR\n2 1 28472 28510 28468 XOR\n2 1 28535 28578 28516 AND\n2 1 28516 28468 28471 XOR\n2 1 28532 28580 28515 AND\n2 1 28515 28516 28509 XOR\n2 1 28521 28509 28491 XOR\n2 1 28522 28491 28492 XOR\n2 1 28530 28492 28496 XOR\n2 1 28531 28496 28501 XOR\n2 1 28513 28501 36040 XOR\n2 1 28482 28509 28478 XOR\n2 1 28510 28478 28481 XOR\n2 1 28480 28481 28584 XOR\n2 1 28473 28478 28477 XOR\n2 1 28476 28477 28583 XOR\n2 1 28501 28475 28582 XOR\n2 1 28491 28468 28467 XOR\n2 1 28466 28467 36038 XOR\n2 1 28529 28496 28465 XOR\n2 1 28464 28465 36039 XOR\n2 1 28492 28463 36043 XOR\n1 1 36039 9161 INV\n2 1 28536 28577 28514 AND\n2 1 28525 28514 28474 XOR\n1 1 28474 28470 INV\n2 1 28470 28471 28581 XOR\n1 1 28583 36037 INV\n1 1 28582 36042 INV\n1 1 28581 36041 INV\n1 1 36038 9168 INV\n2 1 8964 8942 8831 XOR\n2 1 8831 8832 8830 XOR\n1 1 8830 35668 INV\n2 1 35668 638 34023 XOR\n2 1 34023 34025 24006 XOR\n2 1 34024 24006 24008 XOR\n2 1 34028 24008 24090 XOR\n2 1 34027 24008 24087 XOR\n2 1 24013 24008 24089 XOR\n2 1 34023 24099 24095 XOR\n2 1 24006 24101 24093 XOR\n2 1 34022 24093 24092 XOR\n2 1 34023 34024 24023 XOR\n2 1 24023 24096 24094 XOR\n2 1 24101 24023 24097 XOR\n2 1 24006 23969 24091 XOR\n2 1 34029 34023 24102 XOR\n2 1 24093 24097 24086 AND\n2 1 24086 24009 24012 XOR\n2 1 24094 24092 24085 AND\n2 1 24079 24085 24030 XOR\n2 1 24102 24087 24083 AND\n2 1 24083 24007 24011 XOR\n2 1 24099 24095 24082 AND\n2 1 24096 24089 24081 AND\n2 1 24101 24090 24080 AND\n2 1 24080 24008 24010 XOR\n2 1 24012 24010 24016 XOR\n2 1 34029 24016 24021 XOR\n2 1 24030 24021 24077 XOR\n2 1 24079 24080 23982 XOR\n2 1 23982 23983 24029 XOR\n2 1 24029 24011 24028 XOR\n2 1 24082 24028 24076 XOR\n2 1 24100 24091 24078 AND\n2 1 24078 24081 24031 XOR\n2 1 24078 24084 24035 XOR\n2 1 24035 24007 24022 XOR\n2 1 24030 24022 24074 XOR\n2 1 24079 24031 24025 XOR\n2 1 24011 24031 23985 XOR\n2 1 23985 24010 24075 XOR\n2 1 24016 24035 23984 XOR\n2 1 34027 23984 24027 XOR\n2 1 24082 24025 23981 XOR\n2 1 34023 23981 24069 XOR\n2 1 24077 24076 24073 AND\n2 1 24073 24027 24068 XOR\n2 1 24073 24075 24072 XOR\n2 1 24074 24072 24071 AND\n2 1 24071 24027 24070 XOR\n2 1 24071 24083 23976 XOR\n2 1 23976 24012 23972 XOR\n2 1 34029 23972 23975 XOR\n2 1 24071 24021 23973 XOR\n2 1 34027 23972 23971 XOR\n2 1 24068 24069 24067 AND\n2 1 24067 24075 24066 XOR\n2 1 24073 24067 24065 XOR\n2 1 24067 24025 23980 XOR\n2 1 24067 24084 23979 XOR\n2 1 23979 24081 23974 XOR\n2 1 23974 23975 24058 XOR\n2 1 24075 24065 24064 AND\n2 1 24064 24072 24062 XOR\n2 1 24064 24082 24034 XOR\n2 1 24034 24028 24056 XOR\n2 1 34023 24034 24017 XOR\n2 1 24017 23980 24063 XOR\n2 1 24070 24062 24061 AND\n2 1 24061 24030 24020 XOR\n2 1 24020 24022 24060 XOR\n2 1 24061 24085 23978 XOR\n",
"2 1 24017 23978 23970 XOR\n2 1 24007 23970 23977 XOR\n2 1 23974 23977 24059 XOR\n2 1 24020 23973 24057 XOR\n2 1 23970 23971 24055 XOR\n2 1 24056 24093 24054 AND\n2 1 24063 24092 24053 AND\n2 1 24066 34022 24052 AND\n2 1 24052 24054 24033 XOR\n2 1 24057 24087 24051 AND\n2 1 24060 24099 24050 AND\n2 1 24050 24051 24036 XOR\n2 1 24070 24089 24049 AND\n2 1 24049 24050 23987 XOR\n2 1 24058 24090 24048 AND\n2 1 24055 24088 24047 AND\n2 1 24047 24036 24026 XOR\n2 1 24047 24050 24002 XOR\n1 1 24002 23999 INV\n2 1 24047 24048 23998 XOR\n2 1 24048 24026 23986 XOR\n2 1 24059 24091 24046 AND\n2 1 24056 24097 24045 AND\n2 1 24063 24094 24044 AND\n2 1 24066 24098 24043 AND\n2 1 24043 24026 23992 XOR\n1 1 23992 23989 INV\n2 1 24057 24102 24042 AND\n2 1 24042 24046 24018 XOR\n2 1 24051 24042 24003 XOR\n1 1 24018 23996 INV\n2 1 24060 24095 24041 AND\n2 1 24049 24041 24005 XOR\n2 1 24070 24096 24040 AND\n2 1 23996 24040 23995 XOR\n2 1 23995 24033 23991 XOR\n2 1 24058 24101 24039 AND\n2 1 24039 23991 23994 XOR\n2 1 24055 24103 24038 AND\n2 1 24038 24039 24032 XOR\n2 1 24044 24032 24014 XOR\n2 1 24045 24014 24015 XOR\n2 1 24053 24015 24019 XOR\n2 1 24054 24019 24024 XOR\n2 1 24036 24024 36054 XOR\n2 1 24005 24032 24001 XOR\n2 1 24033 24001 24004 XOR\n2 1 24003 24004 24107 XOR\n2 1 23996 24001 24000 XOR\n2 1 23999 24000 24106 XOR\n2 1 24024 23998 24105 XOR\n2 1 24014 23991 23990 XOR\n2 1 23989 23990 36052 XOR\n2 1 24052 24019 23988 XOR\n2 1 23987 23988 36053 XOR\n2 1 24015 23986 36056 XOR\n2 1 24059 24100 24037 AND\n2 1 24048 24037 23997 XOR\n1 1 23997 23993 INV\n2 1 23993 23994 24104 XOR\n1 1 24105 36055 INV\n2 1 8943 8942 8836 XOR\n2 1 35799 8836 35685 XOR\n2 1 35685 621 34040 XOR\n2 1 34040 34042 30400 XOR\n2 1 30304 30400 30385 XOR\n2 1 34041 34040 30280 XOR\n2 1 34045 34040 30397 XOR\n2 1 30400 30385 30376 AND\n2 1 8835 33140 8839 XOR\n2 1 8838 8839 8837 XOR\n1 1 8837 35684 INV\n2 1 35684 622 34039 XOR\n2 1 34039 34041 30303 XOR\n2 1 34040 30303 30305 XOR\n2 1 34044 30305 30387 XOR\n2 1 34043 30305 30384 XOR\n2 1 30310 30305 30386 XOR\n2 1 34039 30396 30392 XOR\n2 1 30303 30398 30390 XOR\n2 1 34038 30390 30389 XOR\n2 1 34039 34040 30320 XOR\n2 1 30320 30393 30391 XOR\n2 1 30398 30320 30394 XOR\n2 1 30303 30266 30388 XOR\n2 1 34045 34039 30399 XOR\n2 1 30390 30394 30383 AND\n2 1 30383 30306 30309 XOR\n2 1 30391 30389 30382 AND\n2 1 30376 30382 30327 XOR\n2 1 30399 30384 30380 AND\n2 1 30380 30304 30308 XOR\n2 1 30396 30392 30379 AND\n2 1 30393 30386 30378 AND\n2 1 30398 30387 30377 AND\n2 1 30377 30305 30307 XOR\n2 1 30309 30307 30313 XOR\n2 1 34045 30313 30318 XOR\n2 1 30327 30318 30374 XOR\n2 1 30376 30377 30279 XOR\n2 1 30279 30280 30326 XOR\n2 1 30326 30308 30325 XOR\n2 1 30379 30325 30373 XOR\n2 1 30397 30388 30375 AND\n2 1 30375 30378 30328 XOR\n2 1 30375 30381 30332 XOR\n2 1 30332 30304 30319 XOR\n2 1 30327 30319 30371 XOR\n2 1 30376 30328 30322 XOR\n2 1 30308 30328 30282 XOR\n2 1 30282 30307 30372 XOR\n2 1 30313 30332 30281 XOR\n2 1 34043 30281 30324 XOR\n2 1 30379 30322 30278 XOR\n2 1 34039 30278 30366 XOR\n2 1 30374 30373 30370 AND\n2 1 30370 30324 30365 XOR\n2 1 30370 30372 30369 XOR\n2 1 30371 30369 30368 AND\n2 1 30368 30324 30367 XOR\n2 1 30368 30380 30273 XOR\n2 1 30273 30309 30269 XOR\n2 1 34045 30269 30272 XOR\n2 1 30368 30318 30270 XOR\n2 1 34043 30269 30268 XOR\n2 1 30365 30366 30364 AND\n2 1 30364 30372 30363 XOR\n2 1 30370 30364 30362 XOR\n",
"2 1 30364 30322 30277 XOR\n2 1 30364 30381 30276 XOR\n2 1 30276 30378 30271 XOR\n2 1 30271 30272 30355 XOR\n2 1 30372 30362 30361 AND\n2 1 30361 30369 30359 XOR\n2 1 30361 30379 30331 XOR\n2 1 30331 30325 30353 XOR\n2 1 34039 30331 30314 XOR\n2 1 30314 30277 30360 XOR\n2 1 30367 30359 30358 AND\n2 1 30358 30327 30317 XOR\n2 1 30317 30319 30357 XOR\n2 1 30358 30382 30275 XOR\n2 1 30314 30275 30267 XOR\n2 1 30304 30267 30274 XOR\n2 1 30271 30274 30356 XOR\n2 1 30317 30270 30354 XOR\n2 1 30267 30268 30352 XOR\n2 1 30353 30390 30351 AND\n2 1 30360 30389 30350 AND\n2 1 30363 34038 30349 AND\n2 1 30349 30351 30330 XOR\n2 1 30354 30384 30348 AND\n2 1 30357 30396 30347 AND\n2 1 30347 30348 30333 XOR\n2 1 30367 30386 30346 AND\n2 1 30346 30347 30284 XOR\n2 1 30355 30387 30345 AND\n2 1 30352 30385 30344 AND\n2 1 30344 30333 30323 XOR\n2 1 30344 30347 30299 XOR\n1 1 30299 30296 INV\n2 1 30344 30345 30295 XOR\n2 1 30345 30323 30283 XOR\n2 1 30356 30388 30343 AND\n2 1 30353 30394 30342 AND\n2 1 30360 30391 30341 AND\n2 1 30363 30395 30340 AND\n2 1 30340 30323 30289 XOR\n1 1 30289 30286 INV\n2 1 30354 30399 30339 AND\n2 1 30339 30343 30315 XOR\n2 1 30348 30339 30300 XOR\n1 1 30315 30293 INV\n2 1 30357 30392 30338 AND\n2 1 30346 30338 30302 XOR\n2 1 30367 30393 30337 AND\n2 1 30293 30337 30292 XOR\n2 1 30292 30330 30288 XOR\n2 1 30355 30398 30336 AND\n2 1 30336 30288 30291 XOR\n2 1 30352 30400 30335 AND\n2 1 30335 30336 30329 XOR\n2 1 30341 30329 30311 XOR\n2 1 30342 30311 30312 XOR\n2 1 30350 30312 30316 XOR\n2 1 30351 30316 30321 XOR\n2 1 30333 30321 36027 XOR\n1 1 36027 9252 INV\n2 1 30302 30329 30298 XOR\n2 1 30330 30298 30301 XOR\n2 1 30300 30301 30404 XOR\n2 1 30293 30298 30297 XOR\n2 1 30296 30297 30403 XOR\n2 1 30321 30295 30402 XOR\n2 1 30311 30288 30287 XOR\n2 1 30286 30287 36025 XOR\n2 1 30349 30316 30285 XOR\n2 1 30284 30285 36026 XOR\n2 1 30312 30283 36028 XOR\n2 1 30356 30397 30334 AND\n2 1 30345 30334 30294 XOR\n1 1 30294 30290 INV\n2 1 30290 30291 30401 XOR\n1 1 36054 9185 INV\n1 1 24106 33041 INV\n1 1 24107 33042 INV\n1 1 24104 33048 INV\n2 1 24105 33048 9358 XOR\n1 1 27044 33097 INV\n1 1 27041 33103 INV\n1 1 27043 33104 INV\n1 1 28584 33129 INV\n1 1 30404 33173 INV\n1 1 30401 33178 INV\n1 1 30402 33179 INV\n2 1 36028 33179 9247 XOR\n1 1 30403 33180 INV\n1 1 30823 33185 INV\n2 1 33185 33205 8924 XOR\n2 1 8854 33185 8857 XOR\n1 1 30824 33186 INV\n2 1 33186 33206 8944 XOR\n2 1 8944 8906 8703 XOR\n1 1 30821 33191 INV\n1 1 30822 33192 INV\n2 1 33192 33191 8849 XOR\n2 1 33192 33212 8917 XOR\n2 1 8929 8917 8887 XOR\n1 1 8128 33244 INV\n2 1 33244 32865 7949 XOR\n2 1 7948 7949 35555 XOR\n2 1 33244 35644 7941 XOR\n2 1 33244 35643 7944 XOR\n2 1 35555 678 33983 XOR\n2 1 33983 31656 31652 XOR\n2 1 33983 33984 31580 XOR\n2 1 31580 31653 31651 XOR\n2 1 33989 33983 31659 XOR\n2 1 31656 31652 31639 AND\n2 1 7943 7944 35557 XOR\n2 1 35557 676 33985 XOR\n2 1 33983 33985 31563 XOR\n2 1 33984 31563 31565 XOR\n2 1 33988 31565 31647 XOR\n2 1 33987 31565 31644 XOR\n2 1 31570 31565 31646 XOR\n2 1 33985 33984 31540 XOR\n2 1 31659 31644 31640 AND\n2 1 31640 31564 31568 XOR\n2 1 31653 31646 31638 AND\n2 1 7940 7941 35558 XOR\n2 1 35558 675 33986 XOR\n2 1 33986 33988 31566 XOR\n2 1 33986 33989 31658 XOR\n2 1 31658 31580 31654 XOR\n2 1 31563 31658 31650 XOR\n",
"2 1 33982 31650 31649 XOR\n2 1 33984 33986 31660 XOR\n2 1 31564 31660 31645 XOR\n2 1 31566 31564 31526 XOR\n2 1 31563 31526 31648 XOR\n2 1 31566 33987 31525 XOR\n2 1 33982 31525 31655 XOR\n2 1 31650 31654 31643 AND\n2 1 31643 31566 31569 XOR\n2 1 31651 31649 31642 AND\n2 1 31655 33982 31641 AND\n2 1 31658 31647 31637 AND\n2 1 31637 31565 31567 XOR\n2 1 31569 31567 31573 XOR\n2 1 33989 31573 31578 XOR\n2 1 31660 31645 31636 AND\n2 1 31636 31642 31587 XOR\n2 1 31587 31578 31634 XOR\n2 1 31636 31637 31539 XOR\n2 1 31539 31540 31586 XOR\n2 1 31586 31568 31585 XOR\n2 1 31639 31585 31633 XOR\n2 1 31657 31648 31635 AND\n2 1 31635 31638 31588 XOR\n2 1 31635 31641 31592 XOR\n2 1 31592 31564 31579 XOR\n2 1 31587 31579 31631 XOR\n2 1 31636 31588 31582 XOR\n2 1 31568 31588 31542 XOR\n2 1 31542 31567 31632 XOR\n2 1 31573 31592 31541 XOR\n2 1 33987 31541 31584 XOR\n2 1 31639 31582 31538 XOR\n2 1 33983 31538 31626 XOR\n2 1 31634 31633 31630 AND\n2 1 31630 31584 31625 XOR\n2 1 31630 31632 31629 XOR\n2 1 31631 31629 31628 AND\n2 1 31628 31584 31627 XOR\n2 1 31628 31640 31533 XOR\n2 1 31533 31569 31529 XOR\n2 1 33989 31529 31532 XOR\n2 1 31628 31578 31530 XOR\n2 1 33987 31529 31528 XOR\n2 1 31625 31626 31624 AND\n2 1 31624 31632 31623 XOR\n2 1 31630 31624 31622 XOR\n2 1 31624 31582 31537 XOR\n2 1 31624 31641 31536 XOR\n2 1 31536 31638 31531 XOR\n2 1 31531 31532 31615 XOR\n2 1 31632 31622 31621 AND\n2 1 31621 31629 31619 XOR\n2 1 31621 31639 31591 XOR\n2 1 31591 31585 31613 XOR\n2 1 33983 31591 31574 XOR\n2 1 31574 31537 31620 XOR\n2 1 31627 31619 31618 AND\n2 1 31618 31587 31577 XOR\n2 1 31577 31579 31617 XOR\n2 1 31618 31642 31535 XOR\n2 1 31574 31535 31527 XOR\n2 1 31564 31527 31534 XOR\n2 1 31531 31534 31616 XOR\n2 1 31577 31530 31614 XOR\n2 1 31527 31528 31612 XOR\n2 1 31613 31650 31611 AND\n2 1 31620 31649 31610 AND\n2 1 31623 33982 31609 AND\n2 1 31609 31611 31590 XOR\n2 1 31614 31644 31608 AND\n2 1 31617 31656 31607 AND\n2 1 31607 31608 31593 XOR\n2 1 31627 31646 31606 AND\n2 1 31606 31607 31544 XOR\n2 1 31615 31647 31605 AND\n2 1 31612 31645 31604 AND\n2 1 31604 31593 31583 XOR\n2 1 31604 31607 31559 XOR\n1 1 31559 31556 INV\n2 1 31604 31605 31555 XOR\n2 1 31605 31583 31543 XOR\n2 1 31616 31648 31603 AND\n2 1 31613 31654 31602 AND\n2 1 31620 31651 31601 AND\n2 1 31623 31655 31600 AND\n2 1 31600 31583 31549 XOR\n1 1 31549 31546 INV\n2 1 31614 31659 31599 AND\n2 1 31599 31603 31575 XOR\n2 1 31608 31599 31560 XOR\n1 1 31575 31553 INV\n2 1 31617 31652 31598 AND\n2 1 31606 31598 31562 XOR\n2 1 31627 31653 31597 AND\n2 1 31553 31597 31552 XOR\n2 1 31552 31590 31548 XOR\n2 1 31615 31658 31596 AND\n2 1 31596 31548 31551 XOR\n2 1 31612 31660 31595 AND\n2 1 31595 31596 31589 XOR\n2 1 31601 31589 31571 XOR\n2 1 31602 31571 31572 XOR\n2 1 31610 31572 31576 XOR\n2 1 31611 31576 31581 XOR\n2 1 31593 31581 35849 XOR\n2 1 35845 35849 8927 XOR\n2 1 31562 31589 31558 XOR\n2 1 31590 31558 31561 XOR\n2 1 31560 31561 31664 XOR\n2 1 31553 31558 31557 XOR\n2 1 31556 31557 31663 XOR\n2 1 31581 31555 31662 XOR\n2 1 31571 31548 31547 XOR\n2 1 31546 31547 35847 XOR\n2 1 35843 35847 8946 XOR\n1 1 8946 8757 INV\n2 1 31609 31576 31545 XOR\n2 1 31544 31545 35848 XOR\n2 1 35844 35848 8936 XOR\n2 1 31572 31543 35850 XOR\n2 1 35835 35850 8904 XOR\n1 1 8904 8669 INV\n2 1 8904 35848 8673 XOR\n2 1 35846 35850 8896 XOR\n1 1 8896 8990 INV\n2 1 8990 35844 8711 XOR\n2 1 8990 33189 8716 XOR\n",
"2 1 8990 35845 8708 XOR\n2 1 31616 31657 31594 AND\n2 1 31605 31594 31554 XOR\n1 1 31554 31550 INV\n2 1 31550 31551 31661 XOR\n2 1 8669 35847 8670 XOR\n1 1 31663 33209 INV\n2 1 33189 33209 8950 XOR\n2 1 8757 33209 8755 XOR\n1 1 31664 33210 INV\n2 1 8669 33210 8667 XOR\n2 1 33190 33210 8958 XOR\n2 1 8958 8904 8758 XOR\n1 1 31661 33215 INV\n2 1 33195 33215 8921 XOR\n2 1 8921 35849 8754 XOR\n1 1 8754 8752 INV\n1 1 31662 33216 INV\n2 1 8896 33216 8744 XOR\n2 1 33196 33216 8910 XOR\n2 1 8910 33215 8747 XOR\n1 1 8127 33245 INV\n2 1 33245 35660 8110 XOR\n2 1 33245 32873 8115 XOR\n2 1 8114 8115 8113 XOR\n1 1 8113 35571 INV\n2 1 35571 662 33999 XOR\n2 1 33999 28716 28712 XOR\n2 1 33999 34000 28640 XOR\n2 1 28640 28713 28711 XOR\n2 1 34005 33999 28719 XOR\n2 1 28716 28712 28699 AND\n2 1 33245 35651 7929 XOR\n2 1 7929 7930 8199 XOR\n2 1 8199 8143 35574 XOR\n2 1 35574 659 34002 XOR\n2 1 34002 34004 28626 XOR\n2 1 34002 34005 28718 XOR\n2 1 28718 28640 28714 XOR\n2 1 34000 34002 28720 XOR\n2 1 28624 28720 28705 XOR\n2 1 28626 28624 28586 XOR\n2 1 28626 34003 28585 XOR\n2 1 33998 28585 28715 XOR\n2 1 28715 33998 28701 AND\n2 1 28720 28705 28696 AND\n2 1 8109 8110 35573 XOR\n2 1 35573 660 34001 XOR\n2 1 33999 34001 28623 XOR\n2 1 34000 28623 28625 XOR\n2 1 34004 28625 28707 XOR\n2 1 34003 28625 28704 XOR\n2 1 28630 28625 28706 XOR\n2 1 28623 28718 28710 XOR\n2 1 33998 28710 28709 XOR\n2 1 34001 34000 28600 XOR\n2 1 28623 28586 28708 XOR\n2 1 28710 28714 28703 AND\n2 1 28703 28626 28629 XOR\n2 1 28711 28709 28702 AND\n2 1 28696 28702 28647 XOR\n2 1 28719 28704 28700 AND\n2 1 28700 28624 28628 XOR\n2 1 28713 28706 28698 AND\n2 1 28718 28707 28697 AND\n2 1 28697 28625 28627 XOR\n2 1 28629 28627 28633 XOR\n2 1 34005 28633 28638 XOR\n2 1 28647 28638 28694 XOR\n2 1 28696 28697 28599 XOR\n2 1 28599 28600 28646 XOR\n2 1 28646 28628 28645 XOR\n2 1 28699 28645 28693 XOR\n2 1 28717 28708 28695 AND\n2 1 28695 28698 28648 XOR\n2 1 28695 28701 28652 XOR\n2 1 28652 28624 28639 XOR\n2 1 28647 28639 28691 XOR\n2 1 28696 28648 28642 XOR\n2 1 28628 28648 28602 XOR\n2 1 28602 28627 28692 XOR\n2 1 28633 28652 28601 XOR\n2 1 34003 28601 28644 XOR\n2 1 28699 28642 28598 XOR\n2 1 33999 28598 28686 XOR\n2 1 28694 28693 28690 AND\n2 1 28690 28644 28685 XOR\n2 1 28690 28692 28689 XOR\n2 1 28691 28689 28688 AND\n2 1 28688 28644 28687 XOR\n2 1 28688 28700 28593 XOR\n2 1 28593 28629 28589 XOR\n2 1 34005 28589 28592 XOR\n2 1 28688 28638 28590 XOR\n2 1 34003 28589 28588 XOR\n2 1 28685 28686 28684 AND\n2 1 28684 28692 28683 XOR\n2 1 28690 28684 28682 XOR\n2 1 28684 28642 28597 XOR\n2 1 28684 28701 28596 XOR\n2 1 28596 28698 28591 XOR\n2 1 28591 28592 28675 XOR\n2 1 28692 28682 28681 AND\n2 1 28681 28689 28679 XOR\n2 1 28681 28699 28651 XOR\n2 1 28651 28645 28673 XOR\n2 1 33999 28651 28634 XOR\n2 1 28634 28597 28680 XOR\n2 1 28687 28679 28678 AND\n2 1 28678 28647 28637 XOR\n2 1 28637 28639 28677 XOR\n2 1 28678 28702 28595 XOR\n2 1 28634 28595 28587 XOR\n2 1 28624 28587 28594 XOR\n2 1 28591 28594 28676 XOR\n2 1 28637 28590 28674 XOR\n2 1 28587 28588 28672 XOR\n2 1 28673 28710 28671 AND\n2 1 28680 28709 28670 AND\n2 1 28683 33998 28669 AND\n2 1 28669 28671 28650 XOR\n2 1 28674 28704 28668 AND\n2 1 28677 28716 28667 AND\n2 1 28667 28668 28653 XOR\n2 1 28687 28706 28666 AND\n2 1 28666 28667 28604 XOR\n2 1 28675 28707 28665 AND\n2 1 28672 28705 28664 AND\n",
"2 1 28664 28653 28643 XOR\n2 1 28664 28667 28619 XOR\n1 1 28619 28616 INV\n2 1 28664 28665 28615 XOR\n2 1 28665 28643 28603 XOR\n2 1 28676 28708 28663 AND\n2 1 28673 28714 28662 AND\n2 1 28680 28711 28661 AND\n2 1 28683 28715 28660 AND\n2 1 28660 28643 28609 XOR\n1 1 28609 28606 INV\n2 1 28674 28719 28659 AND\n2 1 28659 28663 28635 XOR\n2 1 28668 28659 28620 XOR\n1 1 28635 28613 INV\n2 1 28677 28712 28658 AND\n2 1 28666 28658 28622 XOR\n2 1 28687 28713 28657 AND\n2 1 28613 28657 28612 XOR\n2 1 28612 28650 28608 XOR\n2 1 28675 28718 28656 AND\n2 1 28656 28608 28611 XOR\n2 1 28672 28720 28655 AND\n2 1 28655 28656 28649 XOR\n2 1 28661 28649 28631 XOR\n2 1 28662 28631 28632 XOR\n2 1 28670 28632 28636 XOR\n2 1 28671 28636 28641 XOR\n2 1 28653 28641 35822 XOR\n2 1 35817 35822 8926 XOR\n2 1 28622 28649 28618 XOR\n2 1 28650 28618 28621 XOR\n2 1 28620 28621 28724 XOR\n2 1 28613 28618 28617 XOR\n2 1 28616 28617 28723 XOR\n2 1 28641 28615 28722 XOR\n2 1 28631 28608 28607 XOR\n2 1 28606 28607 35820 XOR\n2 1 28669 28636 28605 XOR\n2 1 28604 28605 35821 XOR\n1 1 35821 8653 INV\n2 1 28632 28603 35823 XOR\n2 1 35818 35823 8898 XOR\n2 1 28676 28717 28654 AND\n2 1 28665 28654 28614 XOR\n1 1 28614 28610 INV\n2 1 28610 28611 28721 XOR\n1 1 28723 35819 INV\n2 1 33046 35819 8937 XOR\n2 1 35816 35821 8930 XOR\n1 1 8926 8766 INV\n2 1 35820 33046 8811 XOR\n1 1 8898 8792 INV\n2 1 8792 35816 8795 XOR\n2 1 8792 35817 8791 XOR\n2 1 8792 33046 8799 XOR\n1 1 8930 8793 INV\n2 1 8898 33220 8759 XOR\n2 1 35815 35820 8933 XOR\n1 1 8933 8784 INV\n2 1 8784 35828 8782 XOR\n2 1 28723 33047 8649 XOR\n2 1 8648 8649 8986 XOR\n2 1 35822 35816 8655 XOR\n2 1 8654 8655 8984 XOR\n2 1 8653 35815 8652 XOR\n2 1 8651 8652 8985 XOR\n1 1 28721 33134 INV\n2 1 33052 33134 8922 XOR\n2 1 33134 35817 8809 XOR\n2 1 8922 33219 8781 XOR\n1 1 8781 8779 INV\n2 1 8922 8916 8788 XOR\n1 1 28722 33135 INV\n2 1 33135 33134 8778 XOR\n1 1 28724 33136 INV\n2 1 33047 33136 8938 XOR\n1 1 8133 33246 INV\n2 1 33246 35613 8056 XOR\n2 1 33246 35596 8077 XOR\n2 1 8076 8077 35478 XOR\n2 1 35478 755 33906 XOR\n2 1 33906 33909 8495 XOR\n2 1 33906 33908 8403 XOR\n2 1 33904 33906 8497 XOR\n2 1 8401 8497 8482 XOR\n2 1 8403 8401 8363 XOR\n2 1 8497 8482 8473 AND\n2 1 8403 33907 8362 XOR\n2 1 33902 8362 8492 XOR\n2 1 8492 33902 8478 AND\n2 1 8056 8057 35489 XOR\n2 1 35489 744 33917 XOR\n2 1 33915 33917 31144 XOR\n2 1 31144 31240 31225 XOR\n2 1 33914 33917 31238 XOR\n2 1 31238 31160 31234 XOR\n2 1 31144 31150 31233 XOR\n2 1 31160 31233 31231 XOR\n2 1 31143 31238 31230 XOR\n2 1 33910 31230 31229 XOR\n2 1 31146 31144 31106 XOR\n2 1 31143 31106 31228 XOR\n2 1 33917 33911 31239 XOR\n2 1 33917 33912 31237 XOR\n2 1 31230 31234 31223 AND\n2 1 31223 31146 31149 XOR\n2 1 31231 31229 31222 AND\n2 1 31239 31224 31220 AND\n2 1 31220 31144 31148 XOR\n2 1 31233 31226 31218 AND\n2 1 31238 31227 31217 AND\n2 1 31217 31145 31147 XOR\n2 1 31149 31147 31153 XOR\n2 1 33917 31153 31158 XOR\n2 1 31240 31225 31216 AND\n2 1 31216 31222 31167 XOR\n2 1 31167 31158 31214 XOR\n2 1 31216 31217 31119 XOR\n2 1 31119 31120 31166 XOR\n2 1 31166 31148 31165 XOR\n2 1 31219 31165 31213 XOR\n2 1 31237 31228 31215 AND\n2 1 31215 31218 31168 XOR\n2 1 31215 31221 31172 XOR\n2 1 31172 31144 31159 XOR\n2 1 31167 31159 31211 XOR\n2 1 31216 31168 31162 XOR\n",
"2 1 31148 31168 31122 XOR\n2 1 31122 31147 31212 XOR\n2 1 31153 31172 31121 XOR\n2 1 33915 31121 31164 XOR\n2 1 31219 31162 31118 XOR\n2 1 33911 31118 31206 XOR\n2 1 31214 31213 31210 AND\n2 1 31210 31164 31205 XOR\n2 1 31210 31212 31209 XOR\n2 1 31211 31209 31208 AND\n2 1 31208 31164 31207 XOR\n2 1 31208 31220 31113 XOR\n2 1 31113 31149 31109 XOR\n2 1 33917 31109 31112 XOR\n2 1 31208 31158 31110 XOR\n2 1 33915 31109 31108 XOR\n2 1 31205 31206 31204 AND\n2 1 31204 31212 31203 XOR\n2 1 31210 31204 31202 XOR\n2 1 31204 31162 31117 XOR\n2 1 31204 31221 31116 XOR\n2 1 31116 31218 31111 XOR\n2 1 31111 31112 31195 XOR\n2 1 31212 31202 31201 AND\n2 1 31201 31209 31199 XOR\n2 1 31201 31219 31171 XOR\n2 1 31171 31165 31193 XOR\n2 1 33911 31171 31154 XOR\n2 1 31154 31117 31200 XOR\n2 1 31207 31199 31198 AND\n2 1 31198 31167 31157 XOR\n2 1 31157 31159 31197 XOR\n2 1 31198 31222 31115 XOR\n2 1 31154 31115 31107 XOR\n2 1 31144 31107 31114 XOR\n2 1 31111 31114 31196 XOR\n2 1 31157 31110 31194 XOR\n2 1 31107 31108 31192 XOR\n2 1 31193 31230 31191 AND\n2 1 31200 31229 31190 AND\n2 1 31203 33910 31189 AND\n2 1 31189 31191 31170 XOR\n2 1 31194 31224 31188 AND\n2 1 31197 31236 31187 AND\n2 1 31187 31188 31173 XOR\n2 1 31207 31226 31186 AND\n2 1 31186 31187 31124 XOR\n2 1 31195 31227 31185 AND\n2 1 31192 31225 31184 AND\n2 1 31184 31173 31163 XOR\n2 1 31184 31187 31139 XOR\n1 1 31139 31136 INV\n2 1 31184 31185 31135 XOR\n2 1 31185 31163 31123 XOR\n2 1 31196 31228 31183 AND\n2 1 31193 31234 31182 AND\n2 1 31200 31231 31181 AND\n2 1 31203 31235 31180 AND\n2 1 31180 31163 31129 XOR\n1 1 31129 31126 INV\n2 1 31194 31239 31179 AND\n2 1 31179 31183 31155 XOR\n2 1 31188 31179 31140 XOR\n1 1 31155 31133 INV\n2 1 31197 31232 31178 AND\n2 1 31186 31178 31142 XOR\n2 1 31207 31233 31177 AND\n2 1 31133 31177 31132 XOR\n2 1 31132 31170 31128 XOR\n2 1 31195 31238 31176 AND\n2 1 31176 31128 31131 XOR\n2 1 31192 31240 31175 AND\n2 1 31175 31176 31169 XOR\n2 1 31181 31169 31151 XOR\n2 1 31182 31151 31152 XOR\n2 1 31190 31152 31156 XOR\n2 1 31191 31156 31161 XOR\n2 1 31173 31161 35826 XOR\n2 1 35826 35830 8918 XOR\n2 1 8922 8918 8762 XOR\n2 1 8793 8918 8790 XOR\n1 1 35826 8765 INV\n2 1 8765 35822 8780 XOR\n2 1 8779 8780 35720 XOR\n2 1 35720 586 34075 XOR\n2 1 8790 8791 35711 XOR\n2 1 35711 595 34066 XOR\n2 1 31142 31169 31138 XOR\n2 1 31170 31138 31141 XOR\n2 1 31140 31141 31244 XOR\n2 1 31133 31138 31137 XOR\n2 1 31136 31137 31243 XOR\n2 1 31161 31135 31242 XOR\n2 1 31151 31128 31127 XOR\n2 1 31126 31127 35824 XOR\n2 1 35824 35828 8928 XOR\n2 1 35824 35820 8663 XOR\n2 1 8937 8928 8796 XOR\n2 1 35815 8796 35709 XOR\n2 1 35709 597 34064 XOR\n2 1 34064 34066 28440 XOR\n2 1 8928 33213 8810 XOR\n2 1 8810 8811 35701 XOR\n2 1 35701 605 34056 XOR\n2 1 8930 8928 8770 XOR\n2 1 31189 31156 31125 XOR\n2 1 31124 31125 35825 XOR\n2 1 35825 35829 8923 XOR\n2 1 8985 8923 35702 XOR\n2 1 35702 604 34057 XOR\n2 1 35825 8653 8665 XOR\n2 1 34057 34056 30140 XOR\n2 1 8784 8923 8794 XOR\n2 1 8766 8923 8763 XOR\n2 1 8794 8795 35710 XOR\n2 1 35710 596 34065 XOR\n2 1 34065 34064 28320 XOR\n2 1 31152 31123 35827 XOR\n2 1 35827 35831 8897 XOR\n2 1 35823 35827 8905 XOR\n1 1 8905 8666 INV\n2 1 8666 35830 8664 XOR\n2 1 8905 33213 8660 XOR\n2 1 8938 8897 8775 XOR\n2 1 8938 8905 8785 XOR\n2 1 33214 8785 35715 XOR\n2 1 35715 591 34070 XOR\n2 1 8916 8897 8805 XOR\n",
"2 1 35823 8805 35706 XOR\n2 1 35706 600 34061 XOR\n2 1 34061 34056 30257 XOR\n2 1 8897 35825 8771 XOR\n2 1 8770 8771 35726 XOR\n2 1 35726 580 34081 XOR\n2 1 8897 8765 8764 XOR\n2 1 8763 8764 35727 XOR\n2 1 35727 579 34082 XOR\n2 1 8897 33135 8786 XOR\n2 1 8786 8787 35714 XOR\n2 1 35714 592 34069 XOR\n2 1 34066 34069 28438 XOR\n2 1 34069 34064 28437 XOR\n2 1 8905 35829 8662 XOR\n2 1 8662 8663 8980 XOR\n2 1 8980 8930 35718 XOR\n2 1 35718 588 34073 XOR\n2 1 31196 31237 31174 AND\n2 1 31185 31174 31134 XOR\n1 1 31134 31130 INV\n2 1 31130 31131 31241 XOR\n2 1 8984 8918 35703 XOR\n2 1 35703 603 34058 XOR\n2 1 34058 34061 30258 XOR\n2 1 34056 34058 30260 XOR\n2 1 8664 8665 8979 XOR\n2 1 8979 8926 35719 XOR\n2 1 35719 587 34074 XOR\n2 1 33246 32791 7919 XOR\n2 1 7919 7920 8203 XOR\n2 1 8203 8195 35475 XOR\n2 1 35475 758 33903 XOR\n2 1 33903 33904 8417 XOR\n2 1 33903 8493 8489 XOR\n2 1 8493 8489 8476 AND\n2 1 33909 33903 8496 XOR\n2 1 8417 8490 8488 XOR\n2 1 33903 33905 8400 XOR\n2 1 33904 8400 8402 XOR\n2 1 8400 8363 8485 XOR\n2 1 8494 8485 8472 AND\n2 1 8400 8495 8487 XOR\n2 1 33908 8402 8484 XOR\n2 1 8495 8484 8474 AND\n2 1 8473 8474 8376 XOR\n2 1 33907 8402 8481 XOR\n2 1 8496 8481 8477 AND\n2 1 8477 8401 8405 XOR\n2 1 33902 8487 8486 XOR\n2 1 8488 8486 8479 AND\n2 1 8473 8479 8424 XOR\n2 1 8407 8402 8483 XOR\n2 1 8490 8483 8475 AND\n2 1 8472 8475 8425 XOR\n2 1 8473 8425 8419 XOR\n2 1 8405 8425 8379 XOR\n2 1 8472 8478 8429 XOR\n2 1 8429 8401 8416 XOR\n2 1 8424 8416 8468 XOR\n2 1 8474 8402 8404 XOR\n2 1 8379 8404 8469 XOR\n2 1 8495 8417 8491 XOR\n2 1 8487 8491 8480 AND\n2 1 8480 8403 8406 XOR\n2 1 8406 8404 8410 XOR\n2 1 8410 8429 8378 XOR\n2 1 33907 8378 8421 XOR\n2 1 33909 8410 8415 XOR\n2 1 8424 8415 8471 XOR\n2 1 8376 8377 8423 XOR\n2 1 8423 8405 8422 XOR\n2 1 8476 8422 8470 XOR\n2 1 8471 8470 8467 AND\n2 1 8467 8421 8462 XOR\n2 1 8467 8469 8466 XOR\n2 1 8468 8466 8465 AND\n2 1 8465 8421 8464 XOR\n2 1 8465 8477 8370 XOR\n2 1 8370 8406 8366 XOR\n2 1 33907 8366 8365 XOR\n2 1 33909 8366 8369 XOR\n2 1 8464 8490 8434 AND\n2 1 8464 8483 8443 AND\n2 1 8465 8415 8367 XOR\n2 1 8476 8419 8375 XOR\n2 1 33903 8375 8463 XOR\n2 1 8462 8463 8461 AND\n2 1 8461 8478 8373 XOR\n2 1 8373 8475 8368 XOR\n2 1 8368 8369 8452 XOR\n2 1 8452 8484 8442 AND\n2 1 8452 8495 8433 AND\n2 1 8461 8419 8374 XOR\n2 1 8461 8469 8460 XOR\n2 1 8460 8492 8437 AND\n2 1 8460 33902 8446 AND\n2 1 8467 8461 8459 XOR\n2 1 8469 8459 8458 AND\n2 1 8458 8466 8456 XOR\n2 1 8464 8456 8455 AND\n2 1 8455 8479 8372 XOR\n2 1 8458 8476 8428 XOR\n2 1 33903 8428 8411 XOR\n2 1 8411 8374 8457 XOR\n2 1 8457 8488 8438 AND\n2 1 8457 8486 8447 AND\n2 1 8411 8372 8364 XOR\n2 1 8364 8365 8449 XOR\n2 1 8449 8497 8432 AND\n2 1 8449 8482 8441 AND\n2 1 8401 8364 8371 XOR\n2 1 8368 8371 8453 XOR\n2 1 8453 8485 8440 AND\n2 1 8453 8494 8431 AND\n2 1 8442 8431 8391 XOR\n2 1 8428 8422 8450 XOR\n2 1 8450 8487 8448 AND\n2 1 8450 8491 8439 AND\n2 1 8432 8433 8426 XOR\n2 1 8438 8426 8408 XOR\n2 1 8439 8408 8409 XOR\n2 1 8447 8409 8413 XOR\n2 1 8446 8413 8382 XOR\n2 1 8448 8413 8418 XOR\n2 1 8441 8442 8392 XOR\n2 1 8418 8392 8499 XOR\n1 1 8499 35841 INV\n",
"2 1 33188 35841 8925 XOR\n2 1 8925 33216 8723 XOR\n1 1 8723 8721 INV\n2 1 8499 33187 8748 XOR\n2 1 8925 8921 8705 XOR\n2 1 8925 8896 8732 XOR\n2 1 35835 8732 35746 XOR\n2 1 35746 560 34101 XOR\n2 1 8747 8748 8746 XOR\n1 1 8746 35737 INV\n2 1 35737 569 34092 XOR\n1 1 8391 8387 INV\n2 1 8455 8424 8414 XOR\n2 1 8414 8367 8451 XOR\n2 1 8451 8481 8445 AND\n2 1 8451 8496 8436 AND\n2 1 8436 8440 8412 XOR\n2 1 8414 8416 8454 XOR\n2 1 8454 8489 8435 AND\n2 1 8454 8493 8444 AND\n2 1 8443 8435 8399 XOR\n2 1 8444 8445 8430 XOR\n2 1 8441 8430 8420 XOR\n2 1 8442 8420 8380 XOR\n2 1 8430 8418 35839 XOR\n2 1 35839 35833 8674 XOR\n2 1 8673 8674 8976 XOR\n2 1 35834 35839 8939 XOR\n1 1 8939 8709 INV\n2 1 8709 8936 8707 XOR\n2 1 8707 8708 35759 XOR\n2 1 35759 547 34114 XOR\n2 1 8939 8921 8734 XOR\n2 1 33187 8734 35744 XOR\n2 1 35744 562 34099 XOR\n2 1 34099 34101 28204 XOR\n2 1 35845 35839 8725 XOR\n2 1 8441 8444 8396 XOR\n2 1 8443 8444 8381 XOR\n2 1 8437 8420 8386 XOR\n1 1 8386 8383 INV\n2 1 8445 8436 8397 XOR\n1 1 8412 8390 INV\n1 1 8396 8393 INV\n2 1 8409 8380 35842 XOR\n2 1 35842 35846 8903 XOR\n2 1 35835 35842 8899 XOR\n2 1 8958 8899 8743 XOR\n2 1 33182 8743 35739 XOR\n2 1 35739 567 34094 XOR\n2 1 8903 33209 8675 XOR\n1 1 8903 8680 INV\n2 1 8680 35849 8681 XOR\n2 1 8680 35848 8677 XOR\n2 1 8390 8434 8389 XOR\n2 1 8399 8426 8395 XOR\n2 1 8390 8395 8394 XOR\n2 1 8393 8394 8500 XOR\n1 1 8500 35836 INV\n2 1 8500 33182 8668 XOR\n2 1 8667 8668 8978 XOR\n2 1 8978 8950 35732 XOR\n2 1 35732 574 34087 XOR\n2 1 33189 8500 8727 XOR\n2 1 8381 8382 35838 XOR\n2 1 35833 35838 8947 XOR\n1 1 8947 8712 INV\n2 1 8712 8927 8735 XOR\n1 1 35838 8672 INV\n2 1 8672 35832 8671 XOR\n2 1 8670 8671 8977 XOR\n2 1 8977 8936 35734 XOR\n2 1 35734 572 34089 XOR\n2 1 35844 8672 8682 XOR\n2 1 8681 8682 8973 XOR\n2 1 8973 8939 35751 XOR\n2 1 35751 555 34106 XOR\n2 1 34087 34089 29883 XOR\n2 1 8712 8946 8710 XOR\n2 1 8710 8711 35758 XOR\n2 1 35758 548 34113 XOR\n2 1 8446 8448 8427 XOR\n2 1 8427 8395 8398 XOR\n2 1 8397 8398 8501 XOR\n2 1 8389 8427 8385 XOR\n2 1 8408 8385 8384 XOR\n2 1 8383 8384 35837 XOR\n2 1 35832 35837 8954 XOR\n1 1 35837 8679 INV\n2 1 35843 8679 8678 XOR\n2 1 8679 33181 8756 XOR\n2 1 8755 8756 35733 XOR\n2 1 8677 8678 8974 XOR\n1 1 8954 8728 INV\n2 1 8728 35847 8726 XOR\n2 1 8726 8727 35749 XOR\n2 1 35749 557 34104 XOR\n2 1 34104 34106 29840 XOR\n2 1 8728 8936 8737 XOR\n2 1 8433 8385 8388 XOR\n2 1 8387 8388 8498 XOR\n1 1 8498 35840 INV\n2 1 33187 35840 8932 XOR\n2 1 8932 8910 8733 XOR\n2 1 33188 8733 35745 XOR\n2 1 35745 561 34100 XOR\n2 1 34094 34100 28210 XOR\n2 1 28204 28210 28293 XOR\n2 1 34099 28210 28296 XOR\n2 1 8498 35834 8753 XOR\n2 1 8752 8753 35736 XOR\n2 1 35736 570 34091 XOR\n2 1 33195 8498 8722 XOR\n2 1 8721 8722 35753 XOR\n2 1 35753 553 34108 XOR\n2 1 34106 34108 29746 XOR\n2 1 8932 33215 8724 XOR\n2 1 8724 8725 35752 XOR\n2 1 35752 554 34107 XOR\n2 1 29746 34107 29705 XOR\n2 1 8932 8927 8706 XOR\n2 1 33195 8706 35760 XOR\n2 1 35760 546 34115 XOR\n2 1 8976 8927 35735 XOR\n2 1 35735 571 34090 XOR\n2 1 34090 34092 29886 XOR\n2 1 29886 34091 29845 XOR\n2 1 33181 35836 8961 XOR\n",
"2 1 8961 8958 8717 XOR\n1 1 8717 8715 INV\n2 1 8715 8716 35756 XOR\n2 1 35756 550 34111 XOR\n2 1 34111 34113 26803 XOR\n2 1 8961 8946 8739 XOR\n2 1 35832 8739 35741 XOR\n2 1 35741 565 34096 XOR\n2 1 34101 34096 28297 XOR\n2 1 8954 8950 8713 XOR\n2 1 35843 8713 35757 XOR\n2 1 35757 549 34112 XOR\n2 1 34112 26803 26805 XOR\n2 1 34115 26805 26884 XOR\n2 1 34111 34112 26820 XOR\n2 1 34112 34114 26900 XOR\n2 1 34113 34112 26780 XOR\n2 1 33196 8705 35761 XOR\n2 1 35761 545 34116 XOR\n2 1 34116 26805 26887 XOR\n2 1 34114 34116 26806 XOR\n2 1 26806 34115 26765 XOR\n2 1 8910 8899 8704 XOR\n2 1 35846 8704 35762 XOR\n2 1 35762 544 34117 XOR\n2 1 34115 34117 26804 XOR\n2 1 26804 26900 26885 XOR\n2 1 34114 34117 26898 XOR\n2 1 26898 26820 26894 XOR\n2 1 26803 26898 26890 XOR\n2 1 26806 26804 26766 XOR\n2 1 26803 26766 26888 XOR\n2 1 34117 34111 26899 XOR\n2 1 34117 34112 26897 XOR\n2 1 26890 26894 26883 AND\n2 1 26883 26806 26809 XOR\n2 1 26899 26884 26880 AND\n2 1 26880 26804 26808 XOR\n2 1 26898 26887 26877 AND\n2 1 26877 26805 26807 XOR\n2 1 26809 26807 26813 XOR\n2 1 34117 26813 26818 XOR\n2 1 26900 26885 26876 AND\n2 1 26876 26877 26779 XOR\n2 1 26779 26780 26826 XOR\n2 1 26826 26808 26825 XOR\n2 1 26897 26888 26875 AND\n2 1 33196 8499 8720 XOR\n2 1 35733 573 34088 XOR\n2 1 34088 29883 29885 XOR\n2 1 34092 29885 29967 XOR\n2 1 34091 29885 29964 XOR\n2 1 34087 34088 29900 XOR\n2 1 34088 34090 29980 XOR\n2 1 34089 34088 29860 XOR\n1 1 8501 32811 INV\n2 1 33182 32811 8962 XOR\n2 1 8962 8896 8718 XOR\n2 1 8962 8950 8741 XOR\n2 1 33190 32811 8676 XOR\n2 1 8962 8903 8729 XOR\n2 1 8675 8676 8975 XOR\n2 1 8975 8961 35748 XOR\n2 1 35748 558 34103 XOR\n2 1 33210 8729 35747 XOR\n2 1 34103 34104 29760 XOR\n2 1 33190 8718 35755 XOR\n2 1 35755 551 34110 XOR\n2 1 34110 26890 26889 XOR\n2 1 34110 34116 26810 XOR\n2 1 26810 26805 26886 XOR\n2 1 26804 26810 26893 XOR\n2 1 26820 26893 26891 XOR\n2 1 34115 26810 26896 XOR\n2 1 34111 26896 26892 XOR\n2 1 34110 26765 26895 XOR\n2 1 26891 26889 26882 AND\n2 1 26876 26882 26827 XOR\n2 1 26827 26818 26874 XOR\n2 1 26895 34110 26881 AND\n2 1 26875 26881 26832 XOR\n2 1 26832 26804 26819 XOR\n2 1 26827 26819 26871 XOR\n2 1 26813 26832 26781 XOR\n2 1 34115 26781 26824 XOR\n2 1 26896 26892 26879 AND\n2 1 26879 26825 26873 XOR\n2 1 26893 26886 26878 AND\n2 1 26875 26878 26828 XOR\n2 1 26876 26828 26822 XOR\n2 1 26808 26828 26782 XOR\n2 1 26782 26807 26872 XOR\n2 1 26879 26822 26778 XOR\n2 1 34111 26778 26866 XOR\n2 1 26874 26873 26870 AND\n2 1 26870 26824 26865 XOR\n2 1 26870 26872 26869 XOR\n2 1 26871 26869 26868 AND\n2 1 26868 26824 26867 XOR\n2 1 26868 26880 26773 XOR\n2 1 26773 26809 26769 XOR\n2 1 34117 26769 26772 XOR\n2 1 26868 26818 26770 XOR\n2 1 34115 26769 26768 XOR\n2 1 26865 26866 26864 AND\n2 1 26864 26872 26863 XOR\n2 1 26870 26864 26862 XOR\n2 1 26864 26822 26777 XOR\n2 1 26864 26881 26776 XOR\n2 1 26776 26878 26771 XOR\n2 1 26771 26772 26855 XOR\n2 1 26872 26862 26861 AND\n2 1 26861 26869 26859 XOR\n2 1 26861 26879 26831 XOR\n2 1 26831 26825 26853 XOR\n2 1 34111 26831 26814 XOR\n2 1 26814 26777 26860 XOR\n2 1 26867 26859 26858 AND\n2 1 26858 26827 26817 XOR\n2 1 26817 26819 26857 XOR\n2 1 26858 26882 26775 XOR\n2 1 26814 26775 26767 XOR\n2 1 26804 26767 26774 XOR\n2 1 26771 26774 26856 XOR\n2 1 26817 26770 26854 XOR\n2 1 26767 26768 26852 XOR\n2 1 26853 26890 26851 AND\n2 1 26860 26889 26850 AND\n",
"2 1 26863 34110 26849 AND\n2 1 26849 26851 26830 XOR\n2 1 26854 26884 26848 AND\n2 1 26857 26896 26847 AND\n2 1 26847 26848 26833 XOR\n2 1 26867 26886 26846 AND\n2 1 26846 26847 26784 XOR\n2 1 26855 26887 26845 AND\n2 1 26852 26885 26844 AND\n2 1 26844 26833 26823 XOR\n2 1 26844 26847 26799 XOR\n1 1 26799 26796 INV\n2 1 26844 26845 26795 XOR\n2 1 26845 26823 26783 XOR\n2 1 26856 26888 26843 AND\n2 1 26853 26894 26842 AND\n2 1 26860 26891 26841 AND\n2 1 26863 26895 26840 AND\n2 1 26840 26823 26789 XOR\n1 1 26789 26786 INV\n2 1 26854 26899 26839 AND\n2 1 26839 26843 26815 XOR\n2 1 26848 26839 26800 XOR\n1 1 26815 26793 INV\n2 1 26857 26892 26838 AND\n2 1 26846 26838 26802 XOR\n2 1 26867 26893 26837 AND\n2 1 26793 26837 26792 XOR\n2 1 26792 26830 26788 XOR\n2 1 26855 26898 26836 AND\n2 1 26836 26788 26791 XOR\n2 1 26852 26900 26835 AND\n2 1 26835 26836 26829 XOR\n2 1 26841 26829 26811 XOR\n2 1 26842 26811 26812 XOR\n2 1 26850 26812 26816 XOR\n2 1 26851 26816 26821 XOR\n2 1 26833 26821 36050 XOR\n2 1 26802 26829 26798 XOR\n2 1 26830 26798 26801 XOR\n2 1 26800 26801 26904 XOR\n2 1 26793 26798 26797 XOR\n2 1 26796 26797 26903 XOR\n2 1 26821 26795 26902 XOR\n2 1 26811 26788 26787 XOR\n2 1 26786 26787 36048 XOR\n2 1 26849 26816 26785 XOR\n2 1 26784 26785 36049 XOR\n2 1 26812 26783 36051 XOR\n2 1 26856 26897 26834 AND\n2 1 26845 26834 26794 XOR\n1 1 26794 26790 INV\n2 1 26790 26791 26901 XOR\n2 1 32811 8758 35731 XOR\n2 1 35731 575 34086 XOR\n2 1 34086 34092 29890 XOR\n2 1 29890 29885 29966 XOR\n2 1 34091 29890 29976 XOR\n2 1 34087 29976 29972 XOR\n2 1 34086 29845 29975 XOR\n2 1 29975 34086 29961 AND\n2 1 29976 29972 29959 AND\n2 1 8974 8947 35750 XOR\n2 1 35750 556 34105 XOR\n2 1 34103 34105 29743 XOR\n2 1 34104 29743 29745 XOR\n2 1 34108 29745 29827 XOR\n2 1 34107 29745 29824 XOR\n2 1 34105 34104 29720 XOR\n1 1 26904 33093 INV\n1 1 26901 33098 INV\n1 1 26902 33099 INV\n1 1 26903 33100 INV\n2 1 35842 33188 8745 XOR\n2 1 8744 8745 35738 XOR\n2 1 35738 568 34093 XOR\n2 1 34091 34093 29884 XOR\n2 1 29884 29980 29965 XOR\n2 1 34090 34093 29978 XOR\n2 1 29978 29900 29974 XOR\n2 1 29884 29890 29973 XOR\n2 1 29900 29973 29971 XOR\n2 1 29883 29978 29970 XOR\n2 1 34086 29970 29969 XOR\n2 1 29886 29884 29846 XOR\n2 1 29883 29846 29968 XOR\n2 1 34093 34087 29979 XOR\n2 1 34093 34088 29977 XOR\n2 1 29970 29974 29963 AND\n2 1 29963 29886 29889 XOR\n2 1 29971 29969 29962 AND\n2 1 29979 29964 29960 AND\n2 1 29960 29884 29888 XOR\n2 1 29973 29966 29958 AND\n2 1 29978 29967 29957 AND\n2 1 29957 29885 29887 XOR\n2 1 29889 29887 29893 XOR\n2 1 34093 29893 29898 XOR\n2 1 29980 29965 29956 AND\n2 1 29956 29962 29907 XOR\n2 1 29907 29898 29954 XOR\n2 1 29956 29957 29859 XOR\n2 1 29859 29860 29906 XOR\n2 1 29906 29888 29905 XOR\n2 1 29959 29905 29953 XOR\n2 1 29977 29968 29955 AND\n2 1 29955 29958 29908 XOR\n2 1 29955 29961 29912 XOR\n2 1 29912 29884 29899 XOR\n2 1 29907 29899 29951 XOR\n2 1 29956 29908 29902 XOR\n2 1 29888 29908 29862 XOR\n2 1 29862 29887 29952 XOR\n2 1 29893 29912 29861 XOR\n2 1 34091 29861 29904 XOR\n2 1 29959 29902 29858 XOR\n2 1 34087 29858 29946 XOR\n2 1 29954 29953 29950 AND\n2 1 29950 29904 29945 XOR\n2 1 29950 29952 29949 XOR\n2 1 29951 29949 29948 AND\n2 1 29948 29904 29947 XOR\n2 1 29948 29960 29853 XOR\n2 1 29853 29889 29849 XOR\n2 1 34093 29849 29852 XOR\n2 1 29948 29898 29850 XOR\n2 1 34091 29849 29848 XOR\n2 1 29945 29946 29944 AND\n",
"2 1 29944 29952 29943 XOR\n2 1 29950 29944 29942 XOR\n2 1 29944 29902 29857 XOR\n2 1 29944 29961 29856 XOR\n2 1 29856 29958 29851 XOR\n2 1 29851 29852 29935 XOR\n2 1 29952 29942 29941 AND\n2 1 29941 29949 29939 XOR\n2 1 29941 29959 29911 XOR\n2 1 29911 29905 29933 XOR\n2 1 34087 29911 29894 XOR\n2 1 29894 29857 29940 XOR\n2 1 29947 29939 29938 AND\n2 1 29938 29907 29897 XOR\n2 1 29897 29899 29937 XOR\n2 1 29938 29962 29855 XOR\n2 1 29894 29855 29847 XOR\n2 1 29884 29847 29854 XOR\n2 1 29851 29854 29936 XOR\n2 1 29897 29850 29934 XOR\n2 1 29847 29848 29932 XOR\n2 1 29933 29970 29931 AND\n2 1 29940 29969 29930 AND\n2 1 29943 34086 29929 AND\n2 1 29929 29931 29910 XOR\n2 1 29934 29964 29928 AND\n2 1 29937 29976 29927 AND\n2 1 29927 29928 29913 XOR\n2 1 29947 29966 29926 AND\n2 1 29926 29927 29864 XOR\n2 1 29935 29967 29925 AND\n2 1 29932 29965 29924 AND\n2 1 29924 29913 29903 XOR\n2 1 29924 29927 29879 XOR\n1 1 29879 29876 INV\n2 1 29924 29925 29875 XOR\n2 1 29925 29903 29863 XOR\n2 1 29936 29968 29923 AND\n2 1 29933 29974 29922 AND\n2 1 29940 29971 29921 AND\n2 1 29943 29975 29920 AND\n2 1 29920 29903 29869 XOR\n1 1 29869 29866 INV\n2 1 29934 29979 29919 AND\n2 1 29919 29923 29895 XOR\n2 1 29928 29919 29880 XOR\n1 1 29895 29873 INV\n2 1 29937 29972 29918 AND\n2 1 29926 29918 29882 XOR\n2 1 29947 29973 29917 AND\n2 1 29873 29917 29872 XOR\n2 1 29872 29910 29868 XOR\n2 1 29935 29978 29916 AND\n2 1 29916 29868 29871 XOR\n2 1 29932 29980 29915 AND\n2 1 29915 29916 29909 XOR\n2 1 29921 29909 29891 XOR\n2 1 29922 29891 29892 XOR\n2 1 29930 29892 29896 XOR\n2 1 29931 29896 29901 XOR\n2 1 29913 29901 36018 XOR\n2 1 29882 29909 29878 XOR\n2 1 29910 29878 29881 XOR\n2 1 29880 29881 29984 XOR\n2 1 29873 29878 29877 XOR\n2 1 29876 29877 29983 XOR\n2 1 29901 29875 29982 XOR\n2 1 29891 29868 29867 XOR\n2 1 29866 29867 36016 XOR\n2 1 29929 29896 29865 XOR\n2 1 29864 29865 36017 XOR\n2 1 29892 29863 36019 XOR\n2 1 29936 29977 29914 AND\n2 1 29925 29914 29874 XOR\n1 1 29874 29870 INV\n2 1 29870 29871 29981 XOR\n1 1 29984 33161 INV\n1 1 29981 33166 INV\n1 1 29982 33167 INV\n2 1 36019 33167 9274 XOR\n1 1 29983 33168 INV\n1 1 31243 33197 INV\n2 1 33197 33213 8931 XOR\n2 1 8986 8931 35700 XOR\n2 1 35700 606 34055 XOR\n2 1 34055 34057 30163 XOR\n2 1 34056 30163 30165 XOR\n2 1 30163 30258 30250 XOR\n2 1 34055 34056 30180 XOR\n2 1 30258 30180 30254 XOR\n2 1 34061 34055 30259 XOR\n2 1 30250 30254 30243 AND\n2 1 33197 28723 8783 XOR\n2 1 8782 8783 35717 XOR\n2 1 35717 589 34072 XOR\n2 1 34072 34074 30120 XOR\n2 1 34073 34072 30000 XOR\n2 1 8933 8931 8772 XOR\n2 1 35824 8772 35725 XOR\n2 1 35725 581 34080 XOR\n2 1 8897 33197 8774 XOR\n2 1 8938 8931 8798 XOR\n2 1 8798 8799 8797 XOR\n1 1 8797 35708 INV\n2 1 35708 598 34063 XOR\n2 1 34063 34065 28343 XOR\n2 1 34064 28343 28345 XOR\n2 1 28343 28438 28430 XOR\n2 1 34063 34064 28360 XOR\n2 1 28438 28360 28434 XOR\n2 1 34069 34063 28439 XOR\n2 1 28430 28434 28423 AND\n2 1 34081 34080 9006 XOR\n2 1 34080 34082 9126 XOR\n1 1 31244 33198 INV\n2 1 33198 8775 35723 XOR\n2 1 35723 583 34078 XOR\n2 1 33198 33136 8661 XOR\n2 1 8660 8661 8981 XOR\n2 1 33198 33214 8935 XOR\n2 1 8935 8898 8800 XOR\n2 1 33047 8800 35707 XOR\n2 1 35707 599 34062 XOR\n2 1 34062 28430 28429 XOR\n2 1 8937 8935 8773 XOR\n2 1 8773 8774 35724 XOR\n2 1 35724 582 34079 XOR\n2 1 8935 8907 8812 XOR\n",
"2 1 33136 8812 35699 XOR\n2 1 35699 607 34054 XOR\n2 1 34054 30250 30249 XOR\n2 1 34079 34081 9029 XOR\n2 1 34079 34080 9046 XOR\n2 1 34080 9029 9031 XOR\n2 1 8981 8937 35716 XOR\n2 1 35716 590 34071 XOR\n2 1 34071 34073 30023 XOR\n2 1 34072 30023 30025 XOR\n2 1 34075 30025 30104 XOR\n2 1 34071 34072 30040 XOR\n1 1 31241 33203 INV\n2 1 33203 33219 8913 XOR\n2 1 8913 35830 8808 XOR\n2 1 8926 8913 8789 XOR\n2 1 33203 8762 35728 XOR\n2 1 35728 578 34083 XOR\n2 1 8808 8809 35704 XOR\n2 1 35704 602 34059 XOR\n2 1 34059 30165 30244 XOR\n2 1 34059 34061 30164 XOR\n2 1 30164 30260 30245 XOR\n2 1 30259 30244 30240 AND\n2 1 30240 30164 30168 XOR\n2 1 30260 30245 30236 AND\n2 1 8916 33203 8777 XOR\n2 1 8777 8778 35721 XOR\n2 1 35721 585 34076 XOR\n2 1 34076 30025 30107 XOR\n2 1 34074 34076 30026 XOR\n2 1 34070 34076 30030 XOR\n2 1 30030 30025 30106 XOR\n2 1 34075 30030 30116 XOR\n2 1 34071 30116 30112 XOR\n2 1 30026 34075 29985 XOR\n2 1 34070 29985 30115 XOR\n2 1 30115 34070 30101 AND\n2 1 30116 30112 30099 AND\n2 1 33052 8789 35712 XOR\n2 1 35712 594 34067 XOR\n2 1 34067 28345 28424 XOR\n2 1 34067 34069 28344 XOR\n2 1 28344 28440 28425 XOR\n2 1 28439 28424 28420 AND\n2 1 28420 28344 28348 XOR\n2 1 28440 28425 28416 AND\n2 1 34083 9031 9110 XOR\n1 1 31242 33204 INV\n2 1 33135 33204 8915 XOR\n2 1 8915 33220 8806 XOR\n2 1 8806 8807 35705 XOR\n2 1 35705 601 34060 XOR\n2 1 34060 30165 30247 XOR\n2 1 34058 34060 30166 XOR\n2 1 30243 30166 30169 XOR\n2 1 34054 34060 30170 XOR\n2 1 30170 30165 30246 XOR\n2 1 30164 30170 30253 XOR\n2 1 30180 30253 30251 XOR\n2 1 34059 30170 30256 XOR\n2 1 34055 30256 30252 XOR\n2 1 30166 30164 30126 XOR\n2 1 30163 30126 30248 XOR\n2 1 30166 34059 30125 XOR\n2 1 34054 30125 30255 XOR\n2 1 30251 30249 30242 AND\n2 1 30236 30242 30187 XOR\n2 1 30255 34054 30241 AND\n2 1 30256 30252 30239 AND\n2 1 30253 30246 30238 AND\n2 1 30258 30247 30237 AND\n2 1 30237 30165 30167 XOR\n2 1 30169 30167 30173 XOR\n2 1 34061 30173 30178 XOR\n2 1 30187 30178 30234 XOR\n2 1 30236 30237 30139 XOR\n2 1 30139 30140 30186 XOR\n2 1 30186 30168 30185 XOR\n2 1 30239 30185 30233 XOR\n2 1 30257 30248 30235 AND\n2 1 30235 30238 30188 XOR\n2 1 30235 30241 30192 XOR\n2 1 30192 30164 30179 XOR\n2 1 30187 30179 30231 XOR\n2 1 30236 30188 30182 XOR\n2 1 30168 30188 30142 XOR\n2 1 30142 30167 30232 XOR\n2 1 30173 30192 30141 XOR\n2 1 34059 30141 30184 XOR\n2 1 30239 30182 30138 XOR\n2 1 34055 30138 30226 XOR\n2 1 30234 30233 30230 AND\n2 1 30230 30184 30225 XOR\n2 1 30230 30232 30229 XOR\n2 1 30231 30229 30228 AND\n2 1 30228 30184 30227 XOR\n2 1 30228 30240 30133 XOR\n2 1 30133 30169 30129 XOR\n2 1 34061 30129 30132 XOR\n2 1 30228 30178 30130 XOR\n2 1 34059 30129 30128 XOR\n2 1 30225 30226 30224 AND\n2 1 30224 30232 30223 XOR\n2 1 30230 30224 30222 XOR\n2 1 30224 30182 30137 XOR\n2 1 30224 30241 30136 XOR\n2 1 30136 30238 30131 XOR\n2 1 30131 30132 30215 XOR\n2 1 30232 30222 30221 AND\n2 1 30221 30229 30219 XOR\n2 1 30221 30239 30191 XOR\n2 1 30191 30185 30213 XOR\n2 1 34055 30191 30174 XOR\n2 1 30174 30137 30220 XOR\n2 1 30227 30219 30218 AND\n2 1 30218 30187 30177 XOR\n2 1 30177 30179 30217 XOR\n2 1 30218 30242 30135 XOR\n2 1 30174 30135 30127 XOR\n2 1 30164 30127 30134 XOR\n2 1 30131 30134 30216 XOR\n2 1 30177 30130 30214 XOR\n2 1 30127 30128 30212 XOR\n2 1 30213 30250 30211 AND\n2 1 30220 30249 30210 AND\n2 1 30223 34054 30209 AND\n2 1 30209 30211 30190 XOR\n",
"2 1 30214 30244 30208 AND\n2 1 30217 30256 30207 AND\n2 1 30207 30208 30193 XOR\n2 1 30227 30246 30206 AND\n2 1 30206 30207 30144 XOR\n2 1 30215 30247 30205 AND\n2 1 30212 30245 30204 AND\n2 1 30204 30193 30183 XOR\n2 1 30204 30207 30159 XOR\n1 1 30159 30156 INV\n2 1 30204 30205 30155 XOR\n2 1 30205 30183 30143 XOR\n2 1 30216 30248 30203 AND\n2 1 30213 30254 30202 AND\n2 1 30220 30251 30201 AND\n2 1 30223 30255 30200 AND\n2 1 30200 30183 30149 XOR\n1 1 30149 30146 INV\n2 1 30214 30259 30199 AND\n2 1 30199 30203 30175 XOR\n2 1 30208 30199 30160 XOR\n1 1 30175 30153 INV\n2 1 30217 30252 30198 AND\n2 1 30206 30198 30162 XOR\n2 1 30227 30253 30197 AND\n2 1 30153 30197 30152 XOR\n2 1 30152 30190 30148 XOR\n2 1 30215 30258 30196 AND\n2 1 30196 30148 30151 XOR\n2 1 30212 30260 30195 AND\n2 1 30195 30196 30189 XOR\n2 1 30201 30189 30171 XOR\n2 1 30202 30171 30172 XOR\n2 1 30210 30172 30176 XOR\n2 1 30211 30176 30181 XOR\n2 1 30193 30181 35998 XOR\n2 1 30162 30189 30158 XOR\n2 1 30190 30158 30161 XOR\n2 1 30160 30161 30264 XOR\n2 1 30153 30158 30157 XOR\n2 1 30156 30157 30263 XOR\n2 1 30181 30155 30262 XOR\n2 1 30171 30148 30147 XOR\n2 1 30146 30147 35996 XOR\n2 1 30209 30176 30145 XOR\n2 1 30144 30145 35997 XOR\n2 1 30172 30143 35999 XOR\n2 1 30216 30257 30194 AND\n2 1 30205 30194 30154 XOR\n1 1 30154 30150 INV\n2 1 30150 30151 30261 XOR\n2 1 35999 36015 9393 XOR\n1 1 9393 9289 INV\n2 1 9393 35997 9135 XOR\n2 1 8915 8898 8776 XOR\n2 1 35831 8776 35722 XOR\n2 1 35722 584 34077 XOR\n2 1 34075 34077 30024 XOR\n2 1 30024 30120 30105 XOR\n2 1 34074 34077 30118 XOR\n2 1 30118 30040 30114 XOR\n2 1 30024 30030 30113 XOR\n2 1 30040 30113 30111 XOR\n2 1 30023 30118 30110 XOR\n2 1 34070 30110 30109 XOR\n2 1 30026 30024 29986 XOR\n2 1 30023 29986 30108 XOR\n2 1 34077 34071 30119 XOR\n2 1 34077 34072 30117 XOR\n2 1 30110 30114 30103 AND\n2 1 30103 30026 30029 XOR\n2 1 30111 30109 30102 AND\n2 1 30119 30104 30100 AND\n2 1 30100 30024 30028 XOR\n2 1 30113 30106 30098 AND\n2 1 30118 30107 30097 AND\n2 1 30097 30025 30027 XOR\n2 1 30029 30027 30033 XOR\n2 1 34077 30033 30038 XOR\n2 1 30120 30105 30096 AND\n2 1 30096 30102 30047 XOR\n2 1 30047 30038 30094 XOR\n2 1 30096 30097 29999 XOR\n2 1 29999 30000 30046 XOR\n2 1 30046 30028 30045 XOR\n2 1 30099 30045 30093 XOR\n2 1 30117 30108 30095 AND\n2 1 30095 30098 30048 XOR\n2 1 30095 30101 30052 XOR\n2 1 30052 30024 30039 XOR\n2 1 30047 30039 30091 XOR\n2 1 30096 30048 30042 XOR\n2 1 30028 30048 30002 XOR\n2 1 30002 30027 30092 XOR\n2 1 30033 30052 30001 XOR\n2 1 34075 30001 30044 XOR\n2 1 30099 30042 29998 XOR\n2 1 34071 29998 30086 XOR\n2 1 30094 30093 30090 AND\n2 1 30090 30044 30085 XOR\n2 1 30090 30092 30089 XOR\n2 1 30091 30089 30088 AND\n2 1 30088 30044 30087 XOR\n2 1 30088 30100 29993 XOR\n2 1 29993 30029 29989 XOR\n2 1 34077 29989 29992 XOR\n2 1 30088 30038 29990 XOR\n2 1 34075 29989 29988 XOR\n2 1 30085 30086 30084 AND\n2 1 30084 30092 30083 XOR\n2 1 30090 30084 30082 XOR\n2 1 30084 30042 29997 XOR\n2 1 30084 30101 29996 XOR\n2 1 29996 30098 29991 XOR\n2 1 29991 29992 30075 XOR\n2 1 30092 30082 30081 AND\n2 1 30081 30089 30079 XOR\n2 1 30081 30099 30051 XOR\n2 1 30051 30045 30073 XOR\n2 1 34071 30051 30034 XOR\n2 1 30034 29997 30080 XOR\n2 1 30087 30079 30078 AND\n2 1 30078 30047 30037 XOR\n2 1 30037 30039 30077 XOR\n2 1 30078 30102 29995 XOR\n2 1 30034 29995 29987 XOR\n2 1 30024 29987 29994 XOR\n2 1 29991 29994 30076 XOR\n",
"2 1 30037 29990 30074 XOR\n2 1 29987 29988 30072 XOR\n2 1 30073 30110 30071 AND\n2 1 30080 30109 30070 AND\n2 1 30083 34070 30069 AND\n2 1 30069 30071 30050 XOR\n2 1 30074 30104 30068 AND\n2 1 30077 30116 30067 AND\n2 1 30067 30068 30053 XOR\n2 1 30087 30106 30066 AND\n2 1 30066 30067 30004 XOR\n2 1 30075 30107 30065 AND\n2 1 30072 30105 30064 AND\n2 1 30064 30053 30043 XOR\n2 1 30064 30067 30019 XOR\n1 1 30019 30016 INV\n2 1 30064 30065 30015 XOR\n2 1 30065 30043 30003 XOR\n2 1 30076 30108 30063 AND\n2 1 30073 30114 30062 AND\n2 1 30080 30111 30061 AND\n2 1 30083 30115 30060 AND\n2 1 30060 30043 30009 XOR\n1 1 30009 30006 INV\n2 1 30074 30119 30059 AND\n2 1 30059 30063 30035 XOR\n2 1 30068 30059 30020 XOR\n1 1 30035 30013 INV\n2 1 30077 30112 30058 AND\n2 1 30066 30058 30022 XOR\n2 1 30087 30113 30057 AND\n2 1 30013 30057 30012 XOR\n2 1 30012 30050 30008 XOR\n2 1 30075 30118 30056 AND\n2 1 30056 30008 30011 XOR\n2 1 30072 30120 30055 AND\n2 1 30055 30056 30049 XOR\n2 1 30061 30049 30031 XOR\n2 1 30062 30031 30032 XOR\n2 1 30070 30032 30036 XOR\n2 1 30071 30036 30041 XOR\n2 1 30053 30041 36046 XOR\n2 1 36046 36040 9212 XOR\n2 1 30022 30049 30018 XOR\n2 1 30050 30018 30021 XOR\n2 1 30020 30021 30124 XOR\n2 1 30013 30018 30017 XOR\n2 1 30016 30017 30123 XOR\n2 1 30041 30015 30122 XOR\n2 1 30031 30008 30007 XOR\n2 1 30006 30007 36044 XOR\n2 1 36044 9168 9167 XOR\n2 1 30069 30036 30005 XOR\n2 1 30004 30005 36045 XOR\n2 1 36045 9161 9171 XOR\n2 1 30032 30003 36047 XOR\n2 1 30076 30117 30054 AND\n2 1 30065 30054 30014 XOR\n1 1 30014 30010 INV\n2 1 30010 30011 30121 XOR\n2 1 36045 36049 9421 XOR\n2 1 36047 36051 9381 XOR\n2 1 9381 33099 9231 XOR\n2 1 35827 33204 8760 XOR\n2 1 8915 8913 8761 XOR\n2 1 33045 8761 35729 XOR\n2 1 35729 577 34084 XOR\n2 1 34084 9031 9113 XOR\n2 1 8759 8760 35730 XOR\n2 1 35730 576 34085 XOR\n2 1 34083 34085 9030 XOR\n2 1 34085 34079 9125 XOR\n2 1 9125 9110 9106 AND\n2 1 9106 9030 9034 XOR\n2 1 34085 34080 9123 XOR\n2 1 34082 34085 9124 XOR\n2 1 9124 9113 9103 AND\n2 1 33204 8788 35713 XOR\n2 1 35713 593 34068 XOR\n2 1 34068 28345 28427 XOR\n2 1 34066 34068 28346 XOR\n2 1 28423 28346 28349 XOR\n2 1 34062 34068 28350 XOR\n2 1 28350 28345 28426 XOR\n2 1 28344 28350 28433 XOR\n2 1 28360 28433 28431 XOR\n2 1 34067 28350 28436 XOR\n2 1 34063 28436 28432 XOR\n2 1 28346 28344 28306 XOR\n2 1 28343 28306 28428 XOR\n2 1 28346 34067 28305 XOR\n2 1 34062 28305 28435 XOR\n2 1 28431 28429 28422 AND\n2 1 28416 28422 28367 XOR\n2 1 28435 34062 28421 AND\n2 1 28436 28432 28419 AND\n2 1 28433 28426 28418 AND\n2 1 28438 28427 28417 AND\n2 1 28417 28345 28347 XOR\n2 1 28349 28347 28353 XOR\n2 1 34069 28353 28358 XOR\n2 1 28367 28358 28414 XOR\n2 1 28416 28417 28319 XOR\n2 1 28319 28320 28366 XOR\n2 1 28366 28348 28365 XOR\n2 1 28419 28365 28413 XOR\n2 1 28437 28428 28415 AND\n2 1 28415 28418 28368 XOR\n2 1 28415 28421 28372 XOR\n2 1 28372 28344 28359 XOR\n2 1 28367 28359 28411 XOR\n2 1 28416 28368 28362 XOR\n2 1 28348 28368 28322 XOR\n2 1 28322 28347 28412 XOR\n2 1 28353 28372 28321 XOR\n2 1 34067 28321 28364 XOR\n2 1 28419 28362 28318 XOR\n2 1 34063 28318 28406 XOR\n2 1 28414 28413 28410 AND\n2 1 28410 28364 28405 XOR\n2 1 28410 28412 28409 XOR\n2 1 28411 28409 28408 AND\n2 1 28408 28364 28407 XOR\n2 1 28408 28420 28313 XOR\n2 1 28313 28349 28309 XOR\n2 1 34069 28309 28312 XOR\n2 1 28408 28358 28310 XOR\n2 1 34067 28309 28308 XOR\n",
"2 1 28405 28406 28404 AND\n2 1 28404 28412 28403 XOR\n2 1 28410 28404 28402 XOR\n2 1 28404 28362 28317 XOR\n2 1 28404 28421 28316 XOR\n2 1 28316 28418 28311 XOR\n2 1 28311 28312 28395 XOR\n2 1 28412 28402 28401 AND\n2 1 28401 28409 28399 XOR\n2 1 28401 28419 28371 XOR\n2 1 28371 28365 28393 XOR\n2 1 34063 28371 28354 XOR\n2 1 28354 28317 28400 XOR\n2 1 28407 28399 28398 AND\n2 1 28398 28367 28357 XOR\n2 1 28357 28359 28397 XOR\n2 1 28398 28422 28315 XOR\n2 1 28354 28315 28307 XOR\n2 1 28344 28307 28314 XOR\n2 1 28311 28314 28396 XOR\n2 1 28357 28310 28394 XOR\n2 1 28307 28308 28392 XOR\n2 1 28393 28430 28391 AND\n2 1 28400 28429 28390 AND\n2 1 28403 34062 28389 AND\n2 1 28389 28391 28370 XOR\n2 1 28394 28424 28388 AND\n2 1 28397 28436 28387 AND\n2 1 28387 28388 28373 XOR\n2 1 28407 28426 28386 AND\n2 1 28386 28387 28324 XOR\n2 1 28395 28427 28385 AND\n2 1 28392 28425 28384 AND\n2 1 28384 28373 28363 XOR\n2 1 28384 28387 28339 XOR\n1 1 28339 28336 INV\n2 1 28384 28385 28335 XOR\n2 1 28385 28363 28323 XOR\n2 1 28396 28428 28383 AND\n2 1 28393 28434 28382 AND\n2 1 28400 28431 28381 AND\n2 1 28403 28435 28380 AND\n2 1 28380 28363 28329 XOR\n1 1 28329 28326 INV\n2 1 28394 28439 28379 AND\n2 1 28379 28383 28355 XOR\n2 1 28388 28379 28340 XOR\n1 1 28355 28333 INV\n2 1 28397 28432 28378 AND\n2 1 28386 28378 28342 XOR\n2 1 28407 28433 28377 AND\n2 1 28333 28377 28332 XOR\n2 1 28332 28370 28328 XOR\n2 1 28395 28438 28376 AND\n2 1 28376 28328 28331 XOR\n2 1 28392 28440 28375 AND\n2 1 28375 28376 28369 XOR\n2 1 28381 28369 28351 XOR\n2 1 28382 28351 28352 XOR\n2 1 28390 28352 28356 XOR\n2 1 28391 28356 28361 XOR\n2 1 28373 28361 36059 XOR\n2 1 28342 28369 28338 XOR\n2 1 28370 28338 28341 XOR\n2 1 28340 28341 28444 XOR\n2 1 28333 28338 28337 XOR\n2 1 28336 28337 28443 XOR\n2 1 28361 28335 28442 XOR\n2 1 28351 28328 28327 XOR\n2 1 28326 28327 36057 XOR\n2 1 28389 28356 28325 XOR\n2 1 28324 28325 36058 XOR\n2 1 36058 36057 9134 XOR\n2 1 36058 9185 9184 XOR\n2 1 28352 28323 36060 XOR\n2 1 36056 36060 9380 XOR\n2 1 28396 28437 28374 AND\n2 1 28385 28374 28334 XOR\n1 1 28334 28330 INV\n2 1 28330 28331 28441 XOR\n2 1 36052 36057 9419 XOR\n2 1 36060 24105 9371 XOR\n2 1 9289 33104 9318 XOR\n2 1 36044 36048 9431 XOR\n1 1 9431 9244 INV\n2 1 9244 33100 9242 XOR\n2 1 36043 36047 9388 XOR\n2 1 9388 33100 9164 XOR\n2 1 9029 9124 9116 XOR\n2 1 36046 36050 9412 XOR\n2 1 35996 36011 9428 XOR\n2 1 34078 9116 9115 XOR\n2 1 9030 9126 9111 XOR\n2 1 9126 9111 9102 AND\n2 1 9102 9103 9005 XOR\n2 1 9005 9006 9052 XOR\n2 1 9052 9034 9051 XOR\n2 1 34082 34084 9032 XOR\n2 1 9032 34083 8991 XOR\n2 1 34078 8991 9121 XOR\n2 1 9121 34078 9107 AND\n2 1 9032 9030 8992 XOR\n2 1 9029 8992 9114 XOR\n2 1 9123 9114 9101 AND\n2 1 34078 34084 9036 XOR\n2 1 34083 9036 9122 XOR\n2 1 34079 9122 9118 XOR\n2 1 9122 9118 9105 AND\n2 1 9105 9051 9099 XOR\n2 1 9036 9031 9112 XOR\n2 1 9103 9031 9033 XOR\n2 1 9030 9036 9119 XOR\n2 1 9119 9112 9104 AND\n2 1 9046 9119 9117 XOR\n2 1 9117 9115 9108 AND\n2 1 9102 9108 9053 XOR\n2 1 9101 9104 9054 XOR\n2 1 9034 9054 9008 XOR\n2 1 9008 9033 9098 XOR\n2 1 9101 9107 9058 XOR\n2 1 9058 9030 9045 XOR\n2 1 9053 9045 9097 XOR\n2 1 9102 9054 9048 XOR\n2 1 9105 9048 9004 XOR\n2 1 34079 9004 9092 XOR\n2 1 36054 36059 9445 XOR\n1 1 9381 9478 INV\n2 1 9478 36045 9198 XOR\n",
"2 1 9478 36046 9195 XOR\n1 1 9428 9290 INV\n2 1 9124 9046 9120 XOR\n2 1 9116 9120 9109 AND\n2 1 9109 9032 9035 XOR\n2 1 9035 9033 9039 XOR\n2 1 9039 9058 9007 XOR\n2 1 34083 9007 9050 XOR\n2 1 34085 9039 9044 XOR\n2 1 9053 9044 9100 XOR\n2 1 9100 9099 9096 AND\n2 1 9096 9050 9091 XOR\n2 1 9091 9092 9090 AND\n2 1 9090 9107 9002 XOR\n2 1 9002 9104 8997 XOR\n2 1 9096 9090 9088 XOR\n2 1 9098 9088 9087 AND\n2 1 9090 9048 9003 XOR\n2 1 9090 9098 9089 XOR\n2 1 9089 34078 9075 AND\n2 1 9089 9121 9066 AND\n2 1 9087 9105 9057 XOR\n2 1 9057 9051 9079 XOR\n2 1 9079 9120 9068 AND\n2 1 9079 9116 9077 AND\n2 1 9075 9077 9056 XOR\n2 1 34079 9057 9040 XOR\n2 1 9040 9003 9086 XOR\n2 1 9086 9117 9067 AND\n2 1 9086 9115 9076 AND\n2 1 9096 9098 9095 XOR\n2 1 9087 9095 9085 XOR\n2 1 9097 9095 9094 AND\n2 1 9094 9106 8999 XOR\n2 1 8999 9035 8995 XOR\n2 1 34085 8995 8998 XOR\n2 1 9094 9044 8996 XOR\n2 1 34083 8995 8994 XOR\n2 1 8997 8998 9081 XOR\n2 1 9081 9124 9062 AND\n2 1 9081 9113 9071 AND\n2 1 9094 9050 9093 XOR\n2 1 9093 9119 9063 AND\n2 1 9093 9112 9072 AND\n2 1 9093 9085 9084 AND\n2 1 9084 9108 9001 XOR\n2 1 9084 9053 9043 XOR\n2 1 9043 8996 9080 XOR\n2 1 9080 9125 9065 AND\n2 1 9080 9110 9074 AND\n2 1 9074 9065 9026 XOR\n2 1 9040 9001 8993 XOR\n2 1 9030 8993 9000 XOR\n2 1 8997 9000 9082 XOR\n2 1 9082 9123 9060 AND\n2 1 8993 8994 9078 XOR\n2 1 9078 9126 9061 AND\n2 1 9082 9114 9069 AND\n2 1 9078 9111 9070 AND\n2 1 9061 9062 9055 XOR\n2 1 9065 9069 9041 XOR\n2 1 9070 9071 9021 XOR\n2 1 9071 9060 9020 XOR\n1 1 9020 9016 INV\n2 1 9067 9055 9037 XOR\n2 1 9068 9037 9038 XOR\n2 1 9076 9038 9042 XOR\n2 1 9075 9042 9011 XOR\n2 1 9043 9045 9083 XOR\n2 1 9083 9118 9064 AND\n2 1 9072 9064 9028 XOR\n2 1 9083 9122 9073 AND\n2 1 9072 9073 9010 XOR\n2 1 9070 9073 9025 XOR\n1 1 9025 9022 INV\n2 1 9010 9011 36030 XOR\n2 1 36026 36030 9408 XOR\n2 1 9077 9042 9047 XOR\n2 1 9047 9021 9128 XOR\n2 1 9028 9055 9024 XOR\n2 1 9056 9024 9027 XOR\n2 1 9026 9027 9130 XOR\n1 1 9041 9019 INV\n2 1 9019 9024 9023 XOR\n2 1 9022 9023 9129 XOR\n2 1 9019 9063 9018 XOR\n2 1 9018 9056 9014 XOR\n2 1 9062 9014 9017 XOR\n2 1 9037 9014 9013 XOR\n2 1 9016 9017 9127 XOR\n2 1 9073 9074 9059 XOR\n2 1 9059 9047 36031 XOR\n2 1 36027 36031 9403 XOR\n2 1 9070 9059 9049 XOR\n2 1 9066 9049 9015 XOR\n1 1 9015 9012 INV\n2 1 9012 9013 36029 XOR\n2 1 36025 36029 9413 XOR\n2 1 9071 9049 9009 XOR\n2 1 9038 9009 36032 XOR\n2 1 36019 36032 9392 XOR\n2 1 9392 36030 9143 XOR\n1 1 9392 9139 INV\n2 1 9139 36029 9140 XOR\n1 1 9130 32814 INV\n2 1 33173 32814 9420 XOR\n2 1 9420 9392 9298 XOR\n2 1 9139 32814 9137 XOR\n1 1 9127 32815 INV\n2 1 32815 33166 9293 XOR\n2 1 33178 32815 9398 XOR\n2 1 9398 36031 9294 XOR\n1 1 9128 32816 INV\n2 1 33167 32816 9401 XOR\n2 1 9401 33178 9264 XOR\n1 1 9129 32817 INV\n2 1 33180 32817 9416 XOR\n2 1 9413 32817 9296 XOR\n1 1 28444 33125 INV\n1 1 28441 33130 INV\n2 1 33130 36059 9349 XOR\n1 1 28442 33131 INV\n1 1 28443 33132 INV\n2 1 33041 33132 9434 XOR\n1 1 9434 9343 INV\n2 1 33042 33125 9442 XOR\n1 1 30124 33165 INV\n2 1 33165 33093 9443 XOR\n",
"2 1 33165 33129 9165 XOR\n2 1 9164 9165 9460 XOR\n1 1 30264 33169 INV\n2 1 33169 33097 9449 XOR\n1 1 30121 33170 INV\n2 1 33170 28581 9209 XOR\n2 1 33170 33098 9406 XOR\n2 1 9406 36050 9241 XOR\n1 1 9241 9239 INV\n1 1 30122 33171 INV\n2 1 33171 28582 9207 XOR\n2 1 33171 33099 9395 XOR\n2 1 9395 33098 9234 XOR\n1 1 30123 33172 INV\n2 1 33172 28583 9214 XOR\n2 1 33172 33100 9435 XOR\n2 1 9478 33172 9203 XOR\n1 1 9388 9169 INV\n2 1 9169 36049 9166 XOR\n2 1 9166 9167 9459 XOR\n2 1 9169 36050 9170 XOR\n2 1 9170 9171 9458 XOR\n1 1 30261 33174 INV\n1 1 30262 33175 INV\n1 1 30263 33176 INV\n2 1 33176 33104 9448 XOR\n2 1 36028 36032 9382 XOR\n2 1 9382 9252 9251 XOR\n2 1 9401 9382 9291 XOR\n2 1 9382 36026 9258 XOR\n2 1 9382 33180 9261 XOR\n2 1 36055 33131 9444 XOR\n1 1 8899 33231 INV\n2 1 33231 35833 8738 XOR\n2 1 33231 35850 8719 XOR\n2 1 33231 35834 8736 XOR\n2 1 33231 33181 8742 XOR\n2 1 8741 8742 8740 XOR\n1 1 8740 35740 INV\n2 1 8737 8738 35742 XOR\n2 1 35742 564 34097 XOR\n2 1 34097 34096 28180 XOR\n2 1 8735 8736 35743 XOR\n2 1 35743 563 34098 XOR\n2 1 34098 34100 28206 XOR\n2 1 34098 34101 28298 XOR\n2 1 34096 34098 28300 XOR\n2 1 28204 28300 28285 XOR\n2 1 28206 28204 28166 XOR\n2 1 28206 34099 28165 XOR\n2 1 34094 28165 28295 XOR\n2 1 28295 34094 28281 AND\n2 1 28300 28285 28276 AND\n2 1 8719 8720 35754 XOR\n2 1 35754 552 34109 XOR\n2 1 34107 34109 29744 XOR\n2 1 29744 29840 29825 XOR\n2 1 34106 34109 29838 XOR\n2 1 29838 29760 29834 XOR\n2 1 29743 29838 29830 XOR\n2 1 29746 29744 29706 XOR\n2 1 29743 29706 29828 XOR\n2 1 34109 34103 29839 XOR\n2 1 34109 34104 29837 XOR\n2 1 29830 29834 29823 AND\n2 1 29823 29746 29749 XOR\n2 1 29839 29824 29820 AND\n2 1 29820 29744 29748 XOR\n2 1 29838 29827 29817 AND\n2 1 29817 29745 29747 XOR\n2 1 29749 29747 29753 XOR\n2 1 34109 29753 29758 XOR\n2 1 29840 29825 29816 AND\n2 1 29816 29817 29719 XOR\n2 1 29719 29720 29766 XOR\n2 1 29766 29748 29765 XOR\n2 1 29837 29828 29815 AND\n2 1 35740 566 34095 XOR\n2 1 34095 34097 28203 XOR\n2 1 34096 28203 28205 XOR\n2 1 34100 28205 28287 XOR\n2 1 34099 28205 28284 XOR\n2 1 28210 28205 28286 XOR\n2 1 34095 28296 28292 XOR\n2 1 28203 28298 28290 XOR\n2 1 34094 28290 28289 XOR\n2 1 34095 34096 28220 XOR\n2 1 28220 28293 28291 XOR\n2 1 28298 28220 28294 XOR\n2 1 28203 28166 28288 XOR\n2 1 34101 34095 28299 XOR\n2 1 28290 28294 28283 AND\n2 1 28283 28206 28209 XOR\n2 1 28291 28289 28282 AND\n2 1 28276 28282 28227 XOR\n2 1 28299 28284 28280 AND\n2 1 28280 28204 28208 XOR\n2 1 28296 28292 28279 AND\n2 1 28293 28286 28278 AND\n2 1 28298 28287 28277 AND\n2 1 28277 28205 28207 XOR\n2 1 28209 28207 28213 XOR\n2 1 34101 28213 28218 XOR\n2 1 28227 28218 28274 XOR\n2 1 28276 28277 28179 XOR\n2 1 28179 28180 28226 XOR\n2 1 28226 28208 28225 XOR\n2 1 28279 28225 28273 XOR\n2 1 28297 28288 28275 AND\n2 1 28275 28278 28228 XOR\n2 1 28275 28281 28232 XOR\n2 1 28232 28204 28219 XOR\n2 1 28227 28219 28271 XOR\n2 1 28276 28228 28222 XOR\n2 1 28208 28228 28182 XOR\n2 1 28182 28207 28272 XOR\n2 1 28213 28232 28181 XOR\n2 1 34099 28181 28224 XOR\n2 1 28279 28222 28178 XOR\n2 1 34095 28178 28266 XOR\n2 1 28274 28273 28270 AND\n2 1 28270 28224 28265 XOR\n2 1 28270 28272 28269 XOR\n2 1 28271 28269 28268 AND\n2 1 28268 28224 28267 XOR\n2 1 28268 28280 28173 XOR\n2 1 28173 28209 28169 XOR\n2 1 34101 28169 28172 XOR\n",
"2 1 28268 28218 28170 XOR\n2 1 34099 28169 28168 XOR\n2 1 28265 28266 28264 AND\n2 1 28264 28272 28263 XOR\n2 1 28270 28264 28262 XOR\n2 1 28264 28222 28177 XOR\n2 1 28264 28281 28176 XOR\n2 1 28176 28278 28171 XOR\n2 1 28171 28172 28255 XOR\n2 1 28272 28262 28261 AND\n2 1 28261 28269 28259 XOR\n2 1 28261 28279 28231 XOR\n2 1 28231 28225 28253 XOR\n2 1 34095 28231 28214 XOR\n2 1 28214 28177 28260 XOR\n2 1 28267 28259 28258 AND\n2 1 28258 28227 28217 XOR\n2 1 28217 28219 28257 XOR\n2 1 28258 28282 28175 XOR\n2 1 28214 28175 28167 XOR\n2 1 28204 28167 28174 XOR\n2 1 28171 28174 28256 XOR\n2 1 28217 28170 28254 XOR\n2 1 28167 28168 28252 XOR\n2 1 28253 28290 28251 AND\n2 1 28260 28289 28250 AND\n2 1 28263 34094 28249 AND\n2 1 28249 28251 28230 XOR\n2 1 28254 28284 28248 AND\n2 1 28257 28296 28247 AND\n2 1 28247 28248 28233 XOR\n2 1 28267 28286 28246 AND\n2 1 28246 28247 28184 XOR\n2 1 28255 28287 28245 AND\n2 1 28252 28285 28244 AND\n2 1 28244 28233 28223 XOR\n2 1 28244 28247 28199 XOR\n1 1 28199 28196 INV\n2 1 28244 28245 28195 XOR\n2 1 28245 28223 28183 XOR\n2 1 28256 28288 28243 AND\n2 1 28253 28294 28242 AND\n2 1 28260 28291 28241 AND\n2 1 28263 28295 28240 AND\n2 1 28240 28223 28189 XOR\n1 1 28189 28186 INV\n2 1 28254 28299 28239 AND\n2 1 28239 28243 28215 XOR\n2 1 28248 28239 28200 XOR\n1 1 28215 28193 INV\n2 1 28257 28292 28238 AND\n2 1 28246 28238 28202 XOR\n2 1 28267 28293 28237 AND\n2 1 28193 28237 28192 XOR\n2 1 28192 28230 28188 XOR\n2 1 28255 28298 28236 AND\n2 1 28236 28188 28191 XOR\n2 1 28252 28300 28235 AND\n2 1 28235 28236 28229 XOR\n2 1 28241 28229 28211 XOR\n2 1 28242 28211 28212 XOR\n2 1 28250 28212 28216 XOR\n2 1 28251 28216 28221 XOR\n2 1 28233 28221 36002 XOR\n2 1 35998 36002 9441 XOR\n2 1 28202 28229 28198 XOR\n2 1 28230 28198 28201 XOR\n2 1 28200 28201 28304 XOR\n2 1 28193 28198 28197 XOR\n2 1 28196 28197 28303 XOR\n2 1 28221 28195 28302 XOR\n2 1 33103 28302 9238 XOR\n2 1 28211 28188 28187 XOR\n2 1 28186 28187 36000 XOR\n2 1 28249 28216 28185 XOR\n2 1 28184 28185 36001 XOR\n2 1 28212 28183 36005 XOR\n2 1 27042 36005 9218 XOR\n2 1 28256 28297 28234 AND\n2 1 28245 28234 28194 XOR\n1 1 28194 28190 INV\n2 1 28190 28191 28301 XOR\n2 1 36013 28301 9255 XOR\n1 1 28302 36004 INV\n1 1 28301 36003 INV\n2 1 35999 36005 9386 XOR\n2 1 9386 35997 9176 XOR\n2 1 9449 9386 9201 XOR\n2 1 35996 36000 9177 XOR\n2 1 33174 36003 9438 XOR\n2 1 9438 33103 9314 XOR\n2 1 9289 36001 9288 XOR\n2 1 9176 9177 9455 XOR\n2 1 36012 36002 9136 XOR\n2 1 9135 9136 9472 XOR\n2 1 35997 36001 9450 XOR\n1 1 9450 9332 INV\n2 1 33175 36004 9436 XOR\n2 1 9436 27042 9312 XOR\n1 1 28303 33126 INV\n2 1 9290 33126 9359 XOR\n1 1 28304 33127 INV\n2 1 35747 559 34102 XOR\n2 1 34102 29830 29829 XOR\n2 1 34102 34108 29750 XOR\n2 1 29750 29745 29826 XOR\n2 1 29744 29750 29833 XOR\n2 1 29760 29833 29831 XOR\n2 1 34107 29750 29836 XOR\n2 1 34103 29836 29832 XOR\n2 1 34102 29705 29835 XOR\n2 1 29831 29829 29822 AND\n2 1 29816 29822 29767 XOR\n2 1 29767 29758 29814 XOR\n2 1 29835 34102 29821 AND\n2 1 29815 29821 29772 XOR\n2 1 29772 29744 29759 XOR\n2 1 29767 29759 29811 XOR\n2 1 29753 29772 29721 XOR\n2 1 34107 29721 29764 XOR\n2 1 29836 29832 29819 AND\n2 1 29819 29765 29813 XOR\n2 1 29833 29826 29818 AND\n2 1 29815 29818 29768 XOR\n2 1 29816 29768 29762 XOR\n2 1 29748 29768 29722 XOR\n2 1 29722 29747 29812 XOR\n2 1 29819 29762 29718 XOR\n",
"2 1 34103 29718 29806 XOR\n2 1 29814 29813 29810 AND\n2 1 29810 29764 29805 XOR\n2 1 29810 29812 29809 XOR\n2 1 29811 29809 29808 AND\n2 1 29808 29764 29807 XOR\n2 1 29808 29820 29713 XOR\n2 1 29713 29749 29709 XOR\n2 1 34109 29709 29712 XOR\n2 1 29808 29758 29710 XOR\n2 1 34107 29709 29708 XOR\n2 1 29805 29806 29804 AND\n2 1 29804 29812 29803 XOR\n2 1 29810 29804 29802 XOR\n2 1 29804 29762 29717 XOR\n2 1 29804 29821 29716 XOR\n2 1 29716 29818 29711 XOR\n2 1 29711 29712 29795 XOR\n2 1 29812 29802 29801 AND\n2 1 29801 29809 29799 XOR\n2 1 29801 29819 29771 XOR\n2 1 29771 29765 29793 XOR\n2 1 34103 29771 29754 XOR\n2 1 29754 29717 29800 XOR\n2 1 29807 29799 29798 AND\n2 1 29798 29767 29757 XOR\n2 1 29757 29759 29797 XOR\n2 1 29798 29822 29715 XOR\n2 1 29754 29715 29707 XOR\n2 1 29744 29707 29714 XOR\n2 1 29711 29714 29796 XOR\n2 1 29757 29710 29794 XOR\n2 1 29707 29708 29792 XOR\n2 1 29793 29830 29791 AND\n2 1 29800 29829 29790 AND\n2 1 29803 34102 29789 AND\n2 1 29789 29791 29770 XOR\n2 1 29794 29824 29788 AND\n2 1 29797 29836 29787 AND\n2 1 29787 29788 29773 XOR\n2 1 29807 29826 29786 AND\n2 1 29786 29787 29724 XOR\n2 1 29795 29827 29785 AND\n2 1 29792 29825 29784 AND\n2 1 29784 29773 29763 XOR\n2 1 29784 29787 29739 XOR\n1 1 29739 29736 INV\n2 1 29784 29785 29735 XOR\n2 1 29785 29763 29723 XOR\n2 1 29796 29828 29783 AND\n2 1 29793 29834 29782 AND\n2 1 29800 29831 29781 AND\n2 1 29803 29835 29780 AND\n2 1 29780 29763 29729 XOR\n1 1 29729 29726 INV\n2 1 29794 29839 29779 AND\n2 1 29779 29783 29755 XOR\n2 1 29788 29779 29740 XOR\n1 1 29755 29733 INV\n2 1 29797 29832 29778 AND\n2 1 29786 29778 29742 XOR\n2 1 29807 29833 29777 AND\n2 1 29733 29777 29732 XOR\n2 1 29732 29770 29728 XOR\n2 1 29795 29838 29776 AND\n2 1 29776 29728 29731 XOR\n2 1 29792 29840 29775 AND\n2 1 29775 29776 29769 XOR\n2 1 29781 29769 29751 XOR\n2 1 29782 29751 29752 XOR\n2 1 29790 29752 29756 XOR\n2 1 29791 29756 29761 XOR\n2 1 29773 29761 36063 XOR\n2 1 29742 29769 29738 XOR\n2 1 29770 29738 29741 XOR\n2 1 29740 29741 29844 XOR\n2 1 29733 29738 29737 XOR\n2 1 29736 29737 29843 XOR\n2 1 29761 29735 29842 XOR\n2 1 29751 29728 29727 XOR\n2 1 29726 29727 36061 XOR\n2 1 29789 29756 29725 XOR\n2 1 29724 29725 36062 XOR\n2 1 36058 36062 9399 XOR\n2 1 29752 29723 36064 XOR\n2 1 36060 36064 9394 XOR\n2 1 9442 9394 9354 XOR\n2 1 9394 36061 9133 XOR\n2 1 29796 29837 29774 AND\n2 1 29785 29774 29734 XOR\n1 1 29734 29730 INV\n2 1 29730 29731 29841 XOR\n2 1 36063 36062 9187 XOR\n2 1 9133 9134 9473 XOR\n2 1 9445 9399 9350 XOR\n1 1 29844 33157 INV\n2 1 33157 33125 9132 XOR\n1 1 29841 33162 INV\n2 1 33130 33162 9404 XOR\n2 1 9444 9404 9347 XOR\n1 1 9404 9375 INV\n1 1 29842 33163 INV\n2 1 33163 33131 9346 XOR\n2 1 33163 33162 9335 XOR\n1 1 29843 33164 INV\n2 1 33164 33132 9353 XOR\n1 1 8130 33247 INV\n2 1 33247 32861 8031 XOR\n2 1 8030 8031 8029 XOR\n1 1 8029 35507 INV\n2 1 33247 35615 8027 XOR\n2 1 8026 8027 35509 XOR\n2 1 33247 35616 8024 XOR\n2 1 8023 8024 35510 XOR\n2 1 35507 726 33935 XOR\n2 1 33935 28996 28992 XOR\n2 1 33935 33936 28920 XOR\n2 1 28920 28993 28991 XOR\n2 1 33941 33935 28999 XOR\n2 1 28996 28992 28979 AND\n2 1 35509 724 33937 XOR\n2 1 33935 33937 28903 XOR\n2 1 33936 28903 28905 XOR\n2 1 33940 28905 28987 XOR\n2 1 33939 28905 28984 XOR\n2 1 28910 28905 28986 XOR\n2 1 33937 33936 28880 XOR\n2 1 28999 28984 28980 AND\n",
"2 1 28980 28904 28908 XOR\n2 1 28993 28986 28978 AND\n2 1 35510 723 33938 XOR\n2 1 33938 33940 28906 XOR\n2 1 33938 33941 28998 XOR\n2 1 28998 28920 28994 XOR\n2 1 28903 28998 28990 XOR\n2 1 33934 28990 28989 XOR\n2 1 33936 33938 29000 XOR\n2 1 28904 29000 28985 XOR\n2 1 28906 28904 28866 XOR\n2 1 28903 28866 28988 XOR\n2 1 28906 33939 28865 XOR\n2 1 33934 28865 28995 XOR\n2 1 28990 28994 28983 AND\n2 1 28983 28906 28909 XOR\n2 1 28991 28989 28982 AND\n2 1 28995 33934 28981 AND\n2 1 28998 28987 28977 AND\n2 1 28977 28905 28907 XOR\n2 1 28909 28907 28913 XOR\n2 1 33941 28913 28918 XOR\n2 1 29000 28985 28976 AND\n2 1 28976 28982 28927 XOR\n2 1 28927 28918 28974 XOR\n2 1 28976 28977 28879 XOR\n2 1 28879 28880 28926 XOR\n2 1 28926 28908 28925 XOR\n2 1 28979 28925 28973 XOR\n2 1 28997 28988 28975 AND\n2 1 28975 28978 28928 XOR\n2 1 28975 28981 28932 XOR\n2 1 28932 28904 28919 XOR\n2 1 28927 28919 28971 XOR\n2 1 28976 28928 28922 XOR\n2 1 28908 28928 28882 XOR\n2 1 28882 28907 28972 XOR\n2 1 28913 28932 28881 XOR\n2 1 33939 28881 28924 XOR\n2 1 28979 28922 28878 XOR\n2 1 33935 28878 28966 XOR\n2 1 28974 28973 28970 AND\n2 1 28970 28924 28965 XOR\n2 1 28970 28972 28969 XOR\n2 1 28971 28969 28968 AND\n2 1 28968 28924 28967 XOR\n2 1 28968 28980 28873 XOR\n2 1 28873 28909 28869 XOR\n2 1 33941 28869 28872 XOR\n2 1 28968 28918 28870 XOR\n2 1 33939 28869 28868 XOR\n2 1 28965 28966 28964 AND\n2 1 28964 28972 28963 XOR\n2 1 28970 28964 28962 XOR\n2 1 28964 28922 28877 XOR\n2 1 28964 28981 28876 XOR\n2 1 28876 28978 28871 XOR\n2 1 28871 28872 28955 XOR\n2 1 28972 28962 28961 AND\n2 1 28961 28969 28959 XOR\n2 1 28961 28979 28931 XOR\n2 1 28931 28925 28953 XOR\n2 1 33935 28931 28914 XOR\n2 1 28914 28877 28960 XOR\n2 1 28967 28959 28958 AND\n2 1 28958 28927 28917 XOR\n2 1 28917 28919 28957 XOR\n2 1 28958 28982 28875 XOR\n2 1 28914 28875 28867 XOR\n2 1 28904 28867 28874 XOR\n2 1 28871 28874 28956 XOR\n2 1 28917 28870 28954 XOR\n2 1 28867 28868 28952 XOR\n2 1 28953 28990 28951 AND\n2 1 28960 28989 28950 AND\n2 1 28963 33934 28949 AND\n2 1 28949 28951 28930 XOR\n2 1 28954 28984 28948 AND\n2 1 28957 28996 28947 AND\n2 1 28947 28948 28933 XOR\n2 1 28967 28986 28946 AND\n2 1 28946 28947 28884 XOR\n2 1 28955 28987 28945 AND\n2 1 28952 28985 28944 AND\n2 1 28944 28933 28923 XOR\n2 1 28944 28947 28899 XOR\n1 1 28899 28896 INV\n2 1 28944 28945 28895 XOR\n2 1 28945 28923 28883 XOR\n2 1 28956 28988 28943 AND\n2 1 28953 28994 28942 AND\n2 1 28960 28991 28941 AND\n2 1 28963 28995 28940 AND\n2 1 28940 28923 28889 XOR\n1 1 28889 28886 INV\n2 1 28954 28999 28939 AND\n2 1 28939 28943 28915 XOR\n2 1 28948 28939 28900 XOR\n1 1 28915 28893 INV\n2 1 28957 28992 28938 AND\n2 1 28946 28938 28902 XOR\n2 1 28967 28993 28937 AND\n2 1 28893 28937 28892 XOR\n2 1 28892 28930 28888 XOR\n2 1 28955 28998 28936 AND\n2 1 28936 28888 28891 XOR\n2 1 28952 29000 28935 AND\n2 1 28935 28936 28929 XOR\n2 1 28941 28929 28911 XOR\n2 1 28942 28911 28912 XOR\n2 1 28950 28912 28916 XOR\n2 1 28951 28916 28921 XOR\n2 1 28933 28921 35858 XOR\n2 1 8906 35858 8892 XOR\n2 1 8891 8892 35767 XOR\n2 1 35767 539 34122 XOR\n2 1 28902 28929 28898 XOR\n2 1 28930 28898 28901 XOR\n2 1 28900 28901 29004 XOR\n2 1 28893 28898 28897 XOR\n2 1 28896 28897 29003 XOR\n2 1 28921 28895 29002 XOR\n2 1 28911 28888 28887 XOR\n2 1 28886 28887 35856 XOR\n2 1 35851 35856 8934 XOR\n2 1 28949 28916 28885 XOR\n2 1 28884 28885 35857 XOR\n2 1 28912 28883 35859 XOR\n",
"2 1 35855 35859 8895 XOR\n2 1 8895 35867 8860 XOR\n2 1 35859 35863 8909 XOR\n2 1 8909 35866 8866 XOR\n2 1 28956 28997 28934 AND\n2 1 28945 28934 28894 XOR\n1 1 28894 28890 INV\n2 1 28890 28891 29001 XOR\n2 1 8934 35864 8867 XOR\n2 1 8934 8924 8855 XOR\n2 1 35860 8855 35789 XOR\n2 1 35789 517 34144 XOR\n2 1 8917 8895 8847 XOR\n2 1 33205 35856 8702 XOR\n2 1 35857 8698 8697 XOR\n2 1 8701 8702 35765 XOR\n2 1 35765 541 34120 XOR\n2 1 34120 34122 23963 XOR\n2 1 35857 35861 8914 XOR\n2 1 8982 8914 35766 XOR\n2 1 8914 8912 8852 XOR\n2 1 8852 8853 8851 XOR\n1 1 8851 35790 INV\n2 1 35790 516 34145 XOR\n2 1 34145 34144 26640 XOR\n2 1 35766 540 34121 XOR\n2 1 34121 34120 23843 XOR\n2 1 35859 8359 8886 XOR\n2 1 8909 35860 8644 XOR\n2 1 8944 8895 8884 XOR\n2 1 32808 8884 35771 XOR\n2 1 35857 35856 8645 XOR\n2 1 8644 8645 8988 XOR\n2 1 8988 8920 35782 XOR\n2 1 35782 524 34137 XOR\n2 1 8885 8886 35770 XOR\n2 1 35770 536 34125 XOR\n2 1 34122 34125 23961 XOR\n2 1 34125 34120 23960 XOR\n2 1 8909 33205 8642 XOR\n2 1 35771 535 34126 XOR\n2 1 35853 35858 8960 XOR\n2 1 8960 8929 8876 XOR\n2 1 33191 8876 35776 XOR\n2 1 8966 8960 35791 XOR\n2 1 35791 515 34146 XOR\n2 1 34144 34146 26760 XOR\n2 1 35776 530 34131 XOR\n2 1 8960 8914 8865 XOR\n2 1 8865 8866 35783 XOR\n2 1 8934 8920 8879 XOR\n1 1 8879 8877 INV\n2 1 35863 8847 35794 XOR\n2 1 35794 512 34149 XOR\n2 1 34146 34149 26758 XOR\n2 1 34149 34144 26757 XOR\n2 1 35783 523 34138 XOR\n1 1 29002 33137 INV\n2 1 35854 33137 8959 XOR\n2 1 8959 8894 8870 XOR\n2 1 35855 8870 35778 XOR\n2 1 35778 528 34133 XOR\n2 1 34131 34133 28064 XOR\n2 1 8959 33211 8848 XOR\n2 1 33137 8887 35769 XOR\n2 1 35769 537 34124 XOR\n2 1 33192 33137 8861 XOR\n2 1 8860 8861 35786 XOR\n2 1 35786 520 34141 XOR\n2 1 34138 34141 29698 XOR\n1 1 29003 33138 INV\n2 1 33206 33138 8657 XOR\n2 1 33185 33138 8868 XOR\n2 1 8867 8868 35781 XOR\n2 1 32807 33138 8949 XOR\n2 1 8949 8912 8880 XOR\n1 1 8949 8858 INV\n2 1 8858 8944 8856 XOR\n2 1 8856 8857 35788 XOR\n2 1 35788 518 34143 XOR\n2 1 34143 34145 26663 XOR\n2 1 34144 26663 26665 XOR\n2 1 26663 26758 26750 XOR\n2 1 34143 34144 26680 XOR\n2 1 26758 26680 26754 XOR\n2 1 34149 34143 26759 XOR\n2 1 26750 26754 26743 AND\n2 1 8656 8657 8983 XOR\n2 1 8983 8924 35764 XOR\n2 1 35764 542 34119 XOR\n2 1 34119 34120 23883 XOR\n2 1 23961 23883 23957 XOR\n2 1 34125 34119 23962 XOR\n2 1 35851 8880 35773 XOR\n2 1 35773 533 34128 XOR\n2 1 34133 34128 28157 XOR\n2 1 35781 525 34136 XOR\n2 1 34136 34138 29700 XOR\n2 1 34137 34136 29580 XOR\n2 1 34141 34136 29697 XOR\n1 1 29004 33139 INV\n2 1 32808 33139 8957 XOR\n2 1 8957 8924 8882 XOR\n2 1 33139 8703 35763 XOR\n2 1 8957 8909 8869 XOR\n2 1 33206 8869 35779 XOR\n2 1 35779 527 34134 XOR\n2 1 35763 543 34118 XOR\n2 1 34118 34124 23873 XOR\n2 1 8957 8894 8859 XOR\n2 1 33186 8859 35787 XOR\n2 1 35787 519 34142 XOR\n2 1 34142 26750 26749 XOR\n2 1 33186 33139 8643 XOR\n2 1 8642 8643 8989 XOR\n2 1 8989 8949 35780 XOR\n2 1 35780 526 34135 XOR\n2 1 34135 34137 29603 XOR\n2 1 34136 29603 29605 XOR\n2 1 29603 29698 29690 XOR\n2 1 34134 29690 29689 XOR\n2 1 34135 34136 29620 XOR\n2 1 29698 29620 29694 XOR\n2 1 34141 34135 29699 XOR\n2 1 29690 29694 29683 AND\n1 1 29001 33144 INV\n2 1 33144 33191 8919 XOR\n1 1 8919 8890 INV\n",
"2 1 8890 33211 8888 XOR\n2 1 8888 8889 35768 XOR\n2 1 8919 8911 8850 XOR\n2 1 32812 8850 35792 XOR\n2 1 8917 33144 8872 XOR\n2 1 35768 538 34123 XOR\n2 1 34123 34125 23867 XOR\n2 1 34123 23873 23959 XOR\n2 1 34119 23959 23955 XOR\n2 1 23959 23955 23942 AND\n2 1 23867 23873 23956 XOR\n2 1 33144 35858 8864 XOR\n2 1 8959 8919 8862 XOR\n2 1 8863 8864 35784 XOR\n2 1 35784 522 34139 XOR\n2 1 34139 29605 29684 XOR\n2 1 34139 34141 29604 XOR\n2 1 29604 29700 29685 XOR\n2 1 29699 29684 29680 AND\n2 1 29680 29604 29608 XOR\n2 1 29700 29685 29676 AND\n2 1 33212 8862 35785 XOR\n2 1 8872 8873 8871 XOR\n1 1 8871 35777 INV\n2 1 35777 529 34132 XOR\n2 1 34126 34132 28070 XOR\n2 1 28064 28070 28153 XOR\n2 1 34131 28070 28156 XOR\n2 1 35785 521 34140 XOR\n2 1 34140 29605 29687 XOR\n2 1 34138 34140 29606 XOR\n2 1 29683 29606 29609 XOR\n2 1 34134 34140 29610 XOR\n2 1 29610 29605 29686 XOR\n2 1 29604 29610 29693 XOR\n2 1 29620 29693 29691 XOR\n2 1 34139 29610 29696 XOR\n2 1 34135 29696 29692 XOR\n2 1 29606 29604 29566 XOR\n2 1 29603 29566 29688 XOR\n2 1 29606 34139 29565 XOR\n2 1 34134 29565 29695 XOR\n2 1 29691 29689 29682 AND\n2 1 29676 29682 29627 XOR\n2 1 29695 34134 29681 AND\n2 1 29696 29692 29679 AND\n2 1 29693 29686 29678 AND\n2 1 29698 29687 29677 AND\n2 1 29677 29605 29607 XOR\n2 1 29609 29607 29613 XOR\n2 1 34141 29613 29618 XOR\n2 1 29627 29618 29674 XOR\n2 1 29676 29677 29579 XOR\n2 1 29579 29580 29626 XOR\n2 1 29626 29608 29625 XOR\n2 1 29679 29625 29673 XOR\n2 1 29697 29688 29675 AND\n2 1 29675 29678 29628 XOR\n2 1 29675 29681 29632 XOR\n2 1 29632 29604 29619 XOR\n2 1 29627 29619 29671 XOR\n2 1 29676 29628 29622 XOR\n2 1 29608 29628 29582 XOR\n2 1 29582 29607 29672 XOR\n2 1 29613 29632 29581 XOR\n2 1 34139 29581 29624 XOR\n2 1 29679 29622 29578 XOR\n2 1 34135 29578 29666 XOR\n2 1 29674 29673 29670 AND\n2 1 29670 29624 29665 XOR\n2 1 29670 29672 29669 XOR\n2 1 29671 29669 29668 AND\n2 1 29668 29624 29667 XOR\n2 1 29668 29680 29573 XOR\n2 1 29573 29609 29569 XOR\n2 1 34141 29569 29572 XOR\n2 1 29668 29618 29570 XOR\n2 1 34139 29569 29568 XOR\n2 1 29665 29666 29664 AND\n2 1 29664 29672 29663 XOR\n2 1 29670 29664 29662 XOR\n2 1 29664 29622 29577 XOR\n2 1 29664 29681 29576 XOR\n2 1 29576 29678 29571 XOR\n2 1 29571 29572 29655 XOR\n2 1 29672 29662 29661 AND\n2 1 29661 29669 29659 XOR\n2 1 29661 29679 29631 XOR\n2 1 29631 29625 29653 XOR\n2 1 34135 29631 29614 XOR\n2 1 29614 29577 29660 XOR\n2 1 29667 29659 29658 AND\n2 1 29658 29627 29617 XOR\n2 1 29617 29619 29657 XOR\n2 1 29658 29682 29575 XOR\n2 1 29614 29575 29567 XOR\n2 1 29604 29567 29574 XOR\n2 1 29571 29574 29656 XOR\n2 1 29617 29570 29654 XOR\n2 1 29567 29568 29652 XOR\n2 1 29653 29690 29651 AND\n2 1 29660 29689 29650 AND\n2 1 29663 34134 29649 AND\n2 1 29649 29651 29630 XOR\n2 1 29654 29684 29648 AND\n2 1 29657 29696 29647 AND\n2 1 29647 29648 29633 XOR\n2 1 29667 29686 29646 AND\n2 1 29646 29647 29584 XOR\n2 1 29655 29687 29645 AND\n2 1 29652 29685 29644 AND\n2 1 29644 29633 29623 XOR\n2 1 29644 29647 29599 XOR\n1 1 29599 29596 INV\n2 1 29644 29645 29595 XOR\n2 1 29645 29623 29583 XOR\n2 1 29656 29688 29643 AND\n2 1 29653 29694 29642 AND\n2 1 29660 29691 29641 AND\n2 1 29663 29695 29640 AND\n2 1 29640 29623 29589 XOR\n1 1 29589 29586 INV\n2 1 29654 29699 29639 AND\n2 1 29639 29643 29615 XOR\n2 1 29648 29639 29600 XOR\n1 1 29615 29593 INV\n2 1 29657 29692 29638 AND\n2 1 29646 29638 29602 XOR\n",
"2 1 29667 29693 29637 AND\n2 1 29593 29637 29592 XOR\n2 1 29592 29630 29588 XOR\n2 1 29655 29698 29636 AND\n2 1 29636 29588 29591 XOR\n2 1 29652 29700 29635 AND\n2 1 29635 29636 29629 XOR\n2 1 29641 29629 29611 XOR\n2 1 29642 29611 29612 XOR\n2 1 29650 29612 29616 XOR\n2 1 29651 29616 29621 XOR\n2 1 29633 29621 36009 XOR\n2 1 29602 29629 29598 XOR\n2 1 29630 29598 29601 XOR\n2 1 29600 29601 29704 XOR\n2 1 29593 29598 29597 XOR\n2 1 29596 29597 29703 XOR\n2 1 29703 33169 9175 XOR\n2 1 33104 29703 9307 XOR\n2 1 29621 29595 29702 XOR\n2 1 29611 29588 29587 XOR\n2 1 29586 29587 36007 XOR\n2 1 29649 29616 29585 XOR\n2 1 29584 29585 36008 XOR\n2 1 36008 36001 9173 XOR\n2 1 29612 29583 36010 XOR\n2 1 29656 29697 29634 AND\n2 1 29645 29634 29594 XOR\n1 1 29594 29590 INV\n2 1 29590 29591 29701 XOR\n1 1 29703 36006 INV\n2 1 33126 36006 9427 XOR\n2 1 9449 9427 9317 XOR\n2 1 9317 9318 9316 XOR\n2 1 36000 36007 9425 XOR\n1 1 9425 9308 INV\n2 1 9448 9425 9301 XOR\n2 1 36011 9301 35870 XOR\n2 1 9428 9427 9322 XOR\n2 1 36000 9322 35886 XOR\n2 1 35886 1517 34168 XOR\n2 1 36008 36012 9440 XOR\n2 1 9440 9290 9287 XOR\n2 1 9450 9308 9319 XOR\n2 1 36010 36015 9385 XOR\n2 1 9385 33097 9178 XOR\n2 1 9436 9385 9327 XOR\n2 1 35999 9327 35883 XOR\n2 1 35883 1520 34165 XOR\n1 1 9385 9476 INV\n2 1 9476 33175 9217 XOR\n2 1 9217 9218 35875 XOR\n2 1 35875 1528 34157 XOR\n2 1 9476 36011 9180 XOR\n2 1 9476 36009 9304 XOR\n2 1 9455 9440 35879 XOR\n2 1 35879 1524 34161 XOR\n2 1 36009 36013 9437 XOR\n2 1 9332 9437 9330 XOR\n2 1 9438 9437 9302 XOR\n2 1 9472 9437 35872 XOR\n1 1 9316 35869 INV\n2 1 35869 1534 34151 XOR\n2 1 34157 34151 29559 XOR\n2 1 9441 9440 9305 XOR\n1 1 9305 9303 INV\n2 1 9303 9304 35896 XOR\n2 1 35896 1507 34178 XOR\n2 1 9308 35996 9306 XOR\n2 1 9306 9307 35894 XOR\n2 1 35894 1509 34176 XOR\n2 1 34176 34178 26620 XOR\n2 1 36005 36010 9387 XOR\n2 1 9449 9387 9326 XOR\n2 1 9387 36013 9172 XOR\n2 1 9172 9173 9457 XOR\n2 1 9457 9441 35888 XOR\n2 1 35888 1515 34170 XOR\n2 1 34168 34170 31380 XOR\n2 1 33127 9326 35884 XOR\n2 1 35884 1519 34166 XOR\n2 1 35870 1533 34152 XOR\n2 1 34151 34152 29480 XOR\n2 1 34157 34152 29557 XOR\n2 1 35872 1531 34154 XOR\n2 1 34154 34157 29558 XOR\n2 1 29558 29480 29554 XOR\n2 1 34152 34154 29560 XOR\n2 1 9287 9288 35871 XOR\n2 1 35871 1532 34153 XOR\n2 1 34151 34153 29463 XOR\n2 1 34152 29463 29465 XOR\n2 1 29463 29558 29550 XOR\n2 1 34153 34152 29440 XOR\n2 1 29550 29554 29543 AND\n1 1 36007 9182 INV\n2 1 33176 9182 9360 XOR\n2 1 36008 9182 9181 XOR\n2 1 9180 9181 9453 XOR\n2 1 9453 9450 35895 XOR\n2 1 35895 1508 34177 XOR\n2 1 34177 34176 26500 XOR\n2 1 9359 9360 35878 XOR\n2 1 35878 1525 34160 XOR\n2 1 34161 34160 27900 XOR\n2 1 34165 34160 28017 XOR\n2 1 35792 514 34147 XOR\n2 1 34147 26665 26744 XOR\n2 1 34147 34149 26664 XOR\n2 1 26664 26760 26745 XOR\n2 1 26759 26744 26740 AND\n2 1 26740 26664 26668 XOR\n2 1 26760 26745 26736 AND\n2 1 23867 23963 23948 XOR\n2 1 23963 23948 23939 AND\n1 1 29701 33158 INV\n2 1 33158 33103 9433 XOR\n2 1 9436 9433 9300 XOR\n2 1 9433 35998 9256 XOR\n2 1 9441 9433 9329 XOR\n2 1 33174 9329 35881 XOR\n2 1 35881 1522 34163 XOR\n2 1 34163 34165 27924 XOR\n1 1 9256 9254 INV\n2 1 9254 9255 35873 XOR\n2 1 35873 1530 34155 XOR\n2 1 34155 29465 29544 XOR\n2 1 34155 34157 29464 XOR\n",
"2 1 29464 29560 29545 XOR\n2 1 29559 29544 29540 AND\n2 1 29540 29464 29468 XOR\n2 1 29560 29545 29536 AND\n2 1 33158 28301 9313 XOR\n2 1 9312 9313 35890 XOR\n2 1 35890 1513 34172 XOR\n2 1 34170 34172 31286 XOR\n2 1 34166 34172 31290 XOR\n1 1 29702 33159 INV\n2 1 33159 28302 9311 XOR\n2 1 33159 9300 35898 XOR\n2 1 33159 36014 9430 XOR\n2 1 9438 9430 9328 XOR\n2 1 33175 9328 35882 XOR\n2 1 35882 1521 34164 XOR\n2 1 9430 9386 9299 XOR\n2 1 36010 9299 35899 XOR\n2 1 35899 1504 34181 XOR\n2 1 34178 34181 26618 XOR\n2 1 34181 34176 26617 XOR\n2 1 35898 1505 34180 XOR\n2 1 34178 34180 26526 XOR\n1 1 29704 33160 INV\n2 1 33127 33160 9426 XOR\n2 1 33176 33160 9179 XOR\n2 1 9448 9426 9324 XOR\n2 1 33160 9201 35876 XOR\n2 1 9178 9179 9454 XOR\n2 1 9454 9427 35893 XOR\n2 1 35893 1510 34175 XOR\n2 1 34175 34177 26523 XOR\n2 1 34176 26523 26525 XOR\n2 1 34180 26525 26607 XOR\n2 1 26523 26618 26610 XOR\n2 1 34175 34176 26540 XOR\n2 1 26618 26540 26614 XOR\n2 1 34181 34175 26619 XOR\n2 1 26610 26614 26603 AND\n2 1 26603 26526 26529 XOR\n2 1 26618 26607 26597 AND\n2 1 26597 26525 26527 XOR\n2 1 26529 26527 26533 XOR\n2 1 34181 26533 26538 XOR\n2 1 9426 9385 9309 XOR\n2 1 33169 9309 35892 XOR\n2 1 35892 1511 34174 XOR\n2 1 34174 26610 26609 XOR\n2 1 34174 34180 26530 XOR\n2 1 26530 26525 26606 XOR\n2 1 9426 9393 9378 XOR\n2 1 33097 9378 35868 XOR\n2 1 35868 1535 34150 XOR\n2 1 34150 29550 29549 XOR\n2 1 35876 1527 34158 XOR\n2 1 34158 34164 27930 XOR\n2 1 27924 27930 28013 XOR\n2 1 34163 27930 28016 XOR\n2 1 34119 34121 23866 XOR\n2 1 23866 23961 23953 XOR\n2 1 23953 23957 23946 AND\n2 1 34118 23953 23952 XOR\n2 1 34120 23866 23868 XOR\n2 1 34124 23868 23950 XOR\n2 1 23961 23950 23940 AND\n2 1 23940 23868 23870 XOR\n2 1 23939 23940 23842 XOR\n2 1 23842 23843 23889 XOR\n2 1 34123 23868 23947 XOR\n2 1 23962 23947 23943 AND\n2 1 23943 23867 23871 XOR\n2 1 23889 23871 23888 XOR\n2 1 23942 23888 23936 XOR\n2 1 23873 23868 23949 XOR\n2 1 23956 23949 23941 AND\n2 1 23883 23956 23954 XOR\n2 1 23954 23952 23945 AND\n2 1 23939 23945 23890 XOR\n2 1 9430 33174 9237 XOR\n2 1 9237 9238 9236 XOR\n1 1 9236 35874 INV\n2 1 35874 1529 34156 XOR\n2 1 34156 29465 29547 XOR\n2 1 34154 34156 29466 XOR\n2 1 29543 29466 29469 XOR\n2 1 34150 34156 29470 XOR\n2 1 29470 29465 29546 XOR\n2 1 29464 29470 29553 XOR\n2 1 29480 29553 29551 XOR\n2 1 34155 29470 29556 XOR\n2 1 34151 29556 29552 XOR\n2 1 29466 29464 29426 XOR\n2 1 29463 29426 29548 XOR\n2 1 29466 34155 29425 XOR\n2 1 34150 29425 29555 XOR\n2 1 29551 29549 29542 AND\n2 1 29536 29542 29487 XOR\n2 1 29555 34150 29541 AND\n2 1 29556 29552 29539 AND\n2 1 29553 29546 29538 AND\n2 1 29558 29547 29537 AND\n2 1 29537 29465 29467 XOR\n2 1 29469 29467 29473 XOR\n2 1 34157 29473 29478 XOR\n2 1 29487 29478 29534 XOR\n2 1 29536 29537 29439 XOR\n2 1 29439 29440 29486 XOR\n2 1 29486 29468 29485 XOR\n2 1 29539 29485 29533 XOR\n2 1 29557 29548 29535 AND\n2 1 29535 29538 29488 XOR\n2 1 29535 29541 29492 XOR\n2 1 29492 29464 29479 XOR\n2 1 29487 29479 29531 XOR\n2 1 29536 29488 29482 XOR\n2 1 29468 29488 29442 XOR\n2 1 29442 29467 29532 XOR\n2 1 29473 29492 29441 XOR\n2 1 34155 29441 29484 XOR\n2 1 29539 29482 29438 XOR\n2 1 34151 29438 29526 XOR\n2 1 29534 29533 29530 AND\n2 1 29530 29484 29525 XOR\n2 1 29530 29532 29529 XOR\n2 1 29531 29529 29528 AND\n2 1 29528 29484 29527 XOR\n2 1 29528 29540 29433 XOR\n2 1 29433 29469 29429 XOR\n",
"2 1 34157 29429 29432 XOR\n2 1 29528 29478 29430 XOR\n2 1 34155 29429 29428 XOR\n2 1 29525 29526 29524 AND\n2 1 29524 29532 29523 XOR\n2 1 29530 29524 29522 XOR\n2 1 29524 29482 29437 XOR\n2 1 29524 29541 29436 XOR\n2 1 29436 29538 29431 XOR\n2 1 29431 29432 29515 XOR\n2 1 29532 29522 29521 AND\n2 1 29521 29529 29519 XOR\n2 1 29521 29539 29491 XOR\n2 1 29491 29485 29513 XOR\n2 1 34151 29491 29474 XOR\n2 1 29474 29437 29520 XOR\n2 1 29527 29519 29518 AND\n2 1 29518 29487 29477 XOR\n2 1 29477 29479 29517 XOR\n2 1 29518 29542 29435 XOR\n2 1 29474 29435 29427 XOR\n2 1 29464 29427 29434 XOR\n2 1 29431 29434 29516 XOR\n2 1 29477 29430 29514 XOR\n2 1 29427 29428 29512 XOR\n2 1 29513 29550 29511 AND\n2 1 29520 29549 29510 AND\n2 1 29523 34150 29509 AND\n2 1 29509 29511 29490 XOR\n2 1 29514 29544 29508 AND\n2 1 29517 29556 29507 AND\n2 1 29507 29508 29493 XOR\n2 1 29527 29546 29506 AND\n2 1 29506 29507 29444 XOR\n2 1 29515 29547 29505 AND\n2 1 29512 29545 29504 AND\n2 1 29504 29493 29483 XOR\n2 1 29504 29507 29459 XOR\n1 1 29459 29456 INV\n2 1 29504 29505 29455 XOR\n2 1 29505 29483 29443 XOR\n2 1 29516 29548 29503 AND\n2 1 29513 29554 29502 AND\n2 1 29520 29551 29501 AND\n2 1 29523 29555 29500 AND\n2 1 29500 29483 29449 XOR\n1 1 29449 29446 INV\n2 1 29514 29559 29499 AND\n2 1 29499 29503 29475 XOR\n2 1 29508 29499 29460 XOR\n1 1 29475 29453 INV\n2 1 29517 29552 29498 AND\n2 1 29506 29498 29462 XOR\n2 1 29527 29553 29497 AND\n2 1 29453 29497 29452 XOR\n2 1 29452 29490 29448 XOR\n2 1 29515 29558 29496 AND\n2 1 29496 29448 29451 XOR\n2 1 29512 29560 29495 AND\n2 1 29495 29496 29489 XOR\n2 1 29501 29489 29471 XOR\n2 1 29502 29471 29472 XOR\n2 1 29510 29472 29476 XOR\n2 1 29511 29476 29481 XOR\n2 1 29493 29481 36255 XOR\n2 1 29462 29489 29458 XOR\n2 1 29490 29458 29461 XOR\n2 1 29460 29461 29564 XOR\n2 1 29453 29458 29457 XOR\n2 1 29456 29457 29563 XOR\n2 1 29481 29455 29562 XOR\n2 1 29471 29448 29447 XOR\n2 1 29446 29447 36253 XOR\n2 1 29509 29476 29445 XOR\n2 1 29444 29445 36254 XOR\n2 1 29472 29443 36257 XOR\n2 1 29516 29557 29494 AND\n2 1 29505 29494 29454 XOR\n1 1 29454 29450 INV\n2 1 29450 29451 29561 XOR\n1 1 29562 36256 INV\n1 1 36255 9953 INV\n1 1 29561 33153 INV\n1 1 29563 33154 INV\n1 1 29564 33155 INV\n2 1 29562 33153 10128 XOR\n2 1 36009 36002 9315 XOR\n2 1 9314 9315 35889 XOR\n2 1 35889 1514 34171 XOR\n2 1 34171 31290 31376 XOR\n2 1 31286 34171 31245 XOR\n2 1 34166 31245 31375 XOR\n2 1 31375 34166 31361 AND\n1 1 9387 9321 INV\n2 1 9321 36012 9320 XOR\n2 1 9319 9320 35887 XOR\n2 1 9321 33126 9325 XOR\n2 1 9324 9325 9323 XOR\n1 1 9323 35885 INV\n2 1 35885 1518 34167 XOR\n2 1 34167 31376 31372 XOR\n2 1 34167 34168 31300 XOR\n2 1 31376 31372 31359 AND\n2 1 35887 1516 34169 XOR\n2 1 34167 34169 31283 XOR\n2 1 34168 31283 31285 XOR\n2 1 34172 31285 31367 XOR\n2 1 34171 31285 31364 XOR\n2 1 31290 31285 31366 XOR\n2 1 34169 34168 31260 XOR\n2 1 33158 9302 35897 XOR\n2 1 35897 1506 34179 XOR\n2 1 34179 26525 26604 XOR\n2 1 34179 34181 26524 XOR\n2 1 26524 26620 26605 XOR\n2 1 26524 26530 26613 XOR\n2 1 26540 26613 26611 XOR\n2 1 34179 26530 26616 XOR\n2 1 34175 26616 26612 XOR\n2 1 26526 26524 26486 XOR\n2 1 26523 26486 26608 XOR\n2 1 26526 34179 26485 XOR\n2 1 34174 26485 26615 XOR\n2 1 26611 26609 26602 AND\n2 1 26615 34174 26601 AND\n2 1 26619 26604 26600 AND\n2 1 26600 26524 26528 XOR\n2 1 26616 26612 26599 AND\n"]

end Verif.Data
