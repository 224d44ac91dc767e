import Verif.NetSort

/-!
# The order in which the gates of `data/circ/sub64.txt` are packed

Generated by `tools/gen_circuits.py`.
-/

namespace Verif.Data

def sub64XorReads0 : BTree :=
  .nd (.nd (.nd (.lf
  0x8020060100280600e0200480a0160300680e01e040088120260500a81602e0600c81a0360700e81e03e080108220460901282604e0a01482a0560b01682e05e0c0188320660d01a83606e0e01c83a0760f01e83e07e)
  (.lf
  0x5aeb4d68acf596b1d62ac357eaed5cab7566abd56aab54ea8d50a9f536a5d4aa9351ea2d44a875069fd3ea7b4ee9cd38a6f4d699d32a634be96d2ca574a693d26a4b48e90d20a3f4768dd1aa3345e8ad14a2744687d0ea1b))
  (.nd (.lf
  0x1842d85509e124219b335a69cd099b32a63cc49832fa5dcb896b2ca57cac95329a51ca093b26a4bc9492323a45c8890b20a3fc7c8f31da39c708db1aa33c648c317a2dc588ab14a27c4c89311a21c4087b0ea1bc348630ba)
  (.lf 0))) (.nd (.nd (.lf
  0x13423800b62006d5002b4a00ecf004b30016c9006b1a01ec3808b00026bd00aae802eb700cad0036b100eab803eab810aa2046a5012a8a04e9f014a7205699816a5a05e93018a420668d81aa2a06e8781ca120768101e9f8)
  (.lf 0)) (.nd (.lf
  0x2ae54ca894f29651ca294327e4ec9c9372664bc9692b24e48c9091f23645c8a91321e42c849072063fc7e8fb1ee3cc788ef1d639c728e31be36c6c8d71a633c668cb18e30c608bf1762dc5a8b315e2ac548a714627c4e89b)
  (.lf 0)))

def sub64XorReads1 : BTree :=
  .nd (.nd (.nd (.lf
  0x7e7b8209e0086758229c808e6f0249b20966982699809e638289800a65d02a9680ae5702c9500b65102e9380be4b0309200c6450329080ce3f0348f00d6390368d80de330388c00e62d03a8a80ee2703c8900f62103e87f)
  (.lf 0x1b6b6b6ced8db0b5f6b6d5daab5369ed2da4b47686cfd9eb3b66eccd98b2f656c9d92b2363ec6d8cb17626c3d86b0b60ec0d80aff5f6bdd7aaf35debad74ae75c6b7d6eadb)) (.nd (.lf
  0x12e24c4888f11621c42b6c6c0d59a433e664c998c30c604bd9752de5a4b195d2ac540a594427e4e09912c24e4808d11421c420818fd1ec3c4750e51be360690cd18c3045d8b515e2a45189d12e244458850fe1e43986d0ce)
  (.lf 0))) (.nd (.nd (.lf
  0x15c2884b08a6d4d79a9346674cb991316614bf9792e65b4b39612b6554a79492864f49b9312564948f919226434839011f63d4778e91c63746b8d11963145f8b91662b4538a1136254478891061f43b8710d61942f8590a6)
  (.lf 0)) (.nd (.lf
  0x42e84d08a0f41681d02a033fe7ecfc9f73e67bcf69eb3ce78cf09df3b675cea9d339e72ce49c73866fcde9bb36e6ccd89af35669cd29a333e66ccc99732663cc698b30e60cc097f2f65dcba9732de5acb49672c657cae95b)
  (.lf 0)))

/-- The inputs of the XOR gates by wires: 11 bits each, 64 per leaf. -/
def sub64XorReads : BTree :=
  .nd (sub64XorReads0) (sub64XorReads1)

/-- How often the XOR gates read a wire: 4 bits each, 256 per leaf. -/
def sub64XorFan : BTree :=
  .nd (.nd (.lf
  0x10010010010010010010010010010010010010010010010010010010010010010010010010010010010010010010010010010010010010010010010010010012222222222222222222222222222222222222222222222222222222222222211111111111111111111111111111111111111111111111111111111111111111)
  (.lf 0x0)) (.nd (.lf
  0x1444444444444444444444444444444444444444444444444444444444444441111111111111111111111111111111111111111111111111111111111111111111111111111111111111111111111111111111111111111111111111111101001001001001001001001001001001001001001001001001001001001)
  (.lf 0))

/-- The XOR gates in the order in which they are packed: 11 bits each, 64 per leaf. -/
def sub64XorOrder : BTree :=
  .nd (.nd (.nd (.lf
  0x400c0200500c01c0400901402c0600d01c03c0801102404c0a01502c05c0c01903406c0e01d03c07c1002104408c1202504c09c140290540ac1602d05c0bc180310640cc1a03506c0dc1c0390740ec1e03d07c6d80003f)
  (.lf
  0x1b53666c4d81af35a6acd51a934e694d21a334267ccf19d336664cc19732a64cc919131e634c618b31261cc3185306604c017f2fa5ecbd1792ee5d4ba1732e25bcb716d2d65a4b41672ca58cb1161))
  (.nd (.lf
  0x1fe3f47e0fb1f23dc7b0f51e63c4780ef1da3ac750e91ce394720e31c237c6f0dd1b63646c0d71aa34c690d119e334660cb19231c630c5186304600bf17a2ec5d0b916e2d45a0b31622bc570ad1562a4540a714a28c510a1)
  (.lf 0))) (.nd (.nd (.lf
  0x13e2744e09b13225c4b0951262444808f11a22c4508910e214420831021fc3f07d0f61e43c0770ea1cc390710de1b43606b0d219c330650c61843005f0ba16c2d0590ae1542a0530a213c2704d0961242404708a10c21001)
  (.lf 0)) (.nd (.lf
  0x2be574ae15b2b255cab1552a6544a814f29a52ca514928e514a21432824fc9f13d2764e49c13726a4cc9913125e4b49612b25249c931252464849011f23a46c8d11922e4548a11322243c8710d2164248410720a40c81101)
  (.lf 0)))

/-- The inputs of the AND gates by wires: 11 bits each, 64 per leaf. -/
def sub64AndReads : BTree :=
  .nd (.lf
  0x4007d4fa1e93d0774ee1d13a0714e21b93706b4d61a1340654ca1893105f4be1712e0594b21592b0534a61412804d49a1292504748e111220414820f91f03b4760e11c03546a0c91902f45e0b11602945209913023446083)
  (.lf
  0x413696d0d75ae3516a0d15a2339670cb596321640c558a309610bf57e2f15e0b95722d95b0b35662c1580ad55a2a9550a754e291520a15422794f09b5362614c09552a2494908f51e2314608951221943083506201)

/-- How often the AND gates read a wire: 4 bits each, 256 per leaf. -/
def sub64AndFan : BTree :=
  .nd (.nd (.lf
  0x1101101101101101101101101101101101101101101101101101101101101101101101101101101101101101101101101101101101101101101101101101101100000000000000000000000000000000000000000000000000000000000000010000000000000000000000000000000000000000000000000000000000000000)
  (.lf 0x0)) (.nd (.lf 0x10110110110110110110110110110110110110110110110110110110110) (.lf 0))

/-- The AND gates in the order in which they are packed: 11 bits each, 64 per leaf. -/
def sub64AndOrder : BTree :=
  .lf
  0x104da1ae350688ce196320628c217e2f05c8b61662c0568aa14e2905089e1362604a89211e230448861062003e87a0ee1d03886e0d61a0328620be1702c8560a61402684a08e1102083e0760e01a83205e0b014826046

/-- The inputs of the INV gates by wires: 11 bits each, 64 per leaf. -/
def sub64InvReads : BTree :=
  .lf
  0xd91ac34c680cd19431c620c117c2ec5c0b51642bc560a914c28c5009d13425c4a09111c22c440851041fc3e0790ec1cc3806d0d419c320610bc16c2c0550a413c2604908c10c2003d0740dc1a03105c0ac14025044080

/-- How often the INV gates read a wire: 4 bits each, 256 per leaf. -/
def sub64InvFan : BTree :=
  .nd (.nd (.lf 0x111111111111111111111111111111111111111111111111111111111111111) (.lf 0x0)) (.nd (.lf 0x0) (.lf 0))

/-- The INV gates in the order in which they are packed: 11 bits each, 64 per leaf. -/
def sub64InvOrder : BTree :=
  .lf
  0x6c8d61a6340668ca18e310608be1762e05a8b215e2b0548a61462804e89a12e2504888e116220428820fe1f03c8760e61c03686a0ce1903085e0b61602a85209e130248460861001e83a06e0d01882e0560a012822040

def sub64Pos0 : BTree :=
  .nd (.nd (.nd (.lf 0x0) (.lf
  0x226a4c89692a24c4888e91922c4488710a20c4087f0f91ea3c8768ea1ca3846e8da1aa344668c918a3085f0b916c2c4570aa14a2844f09912c2484708a10c2083f07a0ec1c83706a0cc188)) (.nd
  (.lf
  0x2c0480700a00c0087acd89b83c6624cc1db2e25e0e99492b072c949383864248c1bb1e23e0d98d11b06ac548b83462244c19b0d21e0c98490b062c148383060240c17afd1fe0b97d0fb05abd87b82c5e23cc15aee1de0a9)
  (.lf 0))) (.nd (.nd (.lf
  0x4b81452224c09a8d11e0494488b022a144381050220c07a7d0fe0393c87b01a9d43b80c4e21cc05a6d0de0293486b012994338084c218c03a5d0be0192c85b00a9542b8044a214c01a4d09e0092484b0029142380048210c)
  (.lf 0)) (.nd (.lf
  0x2e0580a8140260480880f90084007e0f81e83c0760e81c83806e0d81a8340660c81883005e0b81682c0560a81482804e098128240460881082003e0780e81c0360680c81802e0580a8140260480881001e0380680c016028)
  (.lf 0)))

def sub64Pos1 : BTree :=
  .nd (.nd (.nd (.lf 0x0) (.lf 0)) (.nd (.lf
  0x480800e018028040060fa1ec3c8770ea1cc3886f0da1ac348670ca18c3085f0ba16c2c8570aa14c2884f09a12c2484708a10c2083f07a0ec1c83706a0cc1882f05a0ac1482704a08c1081f03a06c0c81702a04c0880f01a)
  (.lf 0))) (.nd (.nd (.lf
  0x748eb052b98738285c438c13ade1be0996c8db04ab586b8245a434c11ace19e089650cb042b186382058230c0fabd17e0795d0bb03aad45b81c5642cc0daad15e069548ab032a985381854428c0ba9d13e0594d09b02aa54)
  (.lf 0)) (.nd (.lf
  0x2f05a0ac1482704a08c108001382684c0961282484808e118228440861082084007e0f81e83c0760e81c83806e0d81a8340660c81883005e0b81682c0560a81482804e098128240460881082003e0780e81c0360680c8180)
  (.lf 0)))

/-- Class and place of the gate which drives a wire: 11 bits each, 64 per leaf. -/
def sub64Pos : BTree :=
  .nd (sub64Pos0) (sub64Pos1)

/-- Class, input and places of two gates of a last block which read the same wire, by packing parameter: 44 bits each, 16 per leaf. -/
def sub64LeakTree : BTree :=
  .nd (.lf 0x4dc004da000000000000000000000000000000000000000000000004dc004da0000000000000000000000000000000000000000000000000000000) (.lf 0x0)

end Verif.Data

namespace Verif

open Data

/-- The certificate for the order of the gates. -/
noncomputable def sub64Sort : SortCert where
  xor := ⟨0, 2, 313, fun j => sub64XorReads.get 11 64 j, fun w => sub64XorFan.get 4 256 w, fun r => sub64XorOrder.get 11 64 r⟩
  and := ⟨1, 2, 63, fun j => sub64AndReads.get 11 64 j, fun w => sub64AndFan.get 4 256 w, fun r => sub64AndOrder.get 11 64 r⟩
  inv := ⟨2, 1, 63, fun j => sub64InvReads.get 11 64 j, fun w => sub64InvFan.get 4 256 w, fun r => sub64InvOrder.get 11 64 r⟩
  pos w := sub64Pos.get 11 64 w

/-- Class, input and places of two gates which read the same wire. -/
noncomputable def sub64Leak (l : Nat) : Nat := sub64LeakTree.get 44 16 l

end Verif
